import Verif.Reactions.Parameters
import Verif.Units.Convert

/-!
# Heat transfer coefficient correlations

Model of `cheme_calculations/heat_transfer/heat_transfer_coefficients.py`.
-/

namespace Verif

section
variable {K : Type} [Zero K] [One K] [Add K] [Sub K] [Mul K] [Div K] [Neg K] [NatCast K] [RatCast K] [LinearOrder K] [PyPow K]

/-- heat_transfer_coefficients.py:11-23 `wall_viscosity_correction_factor`. -/
def wallViscosity (mu muWall : PyM (Val K)) : PyM (Val K) := ppow (mu / muWall) (14 / 100)

/-- The text after the printed number in `Unit.__repr__` (units.py:174-178) and `MultiUnit.__repr__` (units.py:956-958);
the number itself is left out, it never contains the letters looked for. -/
def reprUnits (fmt : ℚ → Sym) : Val K → Sym
  | .unit u => if u.exp = 1 then u.unit else u.unit ++ fmt u.exp
  | .multi m => getUnitString fmt m
  | _ => []

/-- heat_transfer_coefficients.py:57-63 (and 98-103): `h = (Nu * k) / L`, converted in place, and rebuilt as a
`HeatTransferCoefficient`.  Numbers and simple units have no `_top_half` to rebuild from. -/
def openField (T : Tables K) (fmt : ℚ → Sym) (Nu L k : PyM (Val K)) : PyM (Val K) :=
  match (Nu * k) / L, k with
  | .error e, _ => .error e
  | _, .error e => .error e
  | .ok (.multi h), .ok k =>
    match convertMulti T h (if c!"BTU" <:+: reprUnits fmt k then c!"BTU/hr*ft^2*F" else c!"W/m^2*K") with
    | .error e => .error e
    | .ok h => .ok (.multi ⟨.sub c!"HeatTransferCoefficient", h.value, h.top, h.bot⟩)
  | .ok (.unit h), .ok k =>
    match convertUnit T h (if c!"BTU" <:+: reprUnits fmt k then c!"BTU/hr*ft^2*F" else c!"W/m^2*K") with
    | .error e => .error e
    | .ok _ => .error .attributeError
  | .ok _, .ok _ => .error .attributeError

/-- heat_transfer_coefficients.py:25-63 `htc_open_field_laminar_local`. -/
def htcLaminarLocal (T : Tables K) (fmt : ℚ → Sym) (Re Pr L k psi : PyM (Val K)) : PyM (Val K) :=
  openField T fmt (pnum (332 / 1000) * ppow Re (1 / 2) * ppow Pr (1 / 3) * psi) L k
/-- heat_transfer_coefficients.py:66-104 `htc_open_field_laminar_avg`. -/
def htcLaminarAvg (T : Tables K) (fmt : ℚ → Sym) (Re Pr L k psi : PyM (Val K)) : PyM (Val K) :=
  openField T fmt (pnum (664 / 1000) * ppow Re (1 / 2) * ppow Pr (1 / 3) * psi) L k
/-- heat_transfer_coefficients.py:107-151 `htc_open_field_turbulent_avg`. -/
def htcTurbulentAvg (Re Pr L k psi : PyM (Val K)) : PyM (Val K) :=
  ((pnum (37 / 1000) * ppow Re (8 / 10) * ppow Pr (1 / 3) * psi - pnum 871 * ppow Pr (1 / 3) * psi) * k) / L
/-- heat_transfer_coefficients.py:153-197 `htc_open_field_turbulent_local`. -/
def htcTurbulentLocal (Re Pr L k psi : PyM (Val K)) : PyM (Val K) :=
  ((pnum (296 / 10000) * ppow Re (8 / 10) * ppow Pr (1 / 3) * psi) * k) / L
/-- heat_transfer_coefficients.py:200-247 `htc_pipe_laminar`. -/
def htcPipeLaminar (Re Pr diameter L k psi : PyM (Val K)) : PyM (Val K) :=
  ((pnum (185 / 100) * ppow (Re * Pr * (diameter / L)) (1 / 3) * psi) * k) / diameter
/-- heat_transfer_coefficients.py:249-293 `htc_pipe_turbulent`. -/
def htcPipeTurbulent (Re Pr diameter k psi : PyM (Val K)) : PyM (Val K) :=
  ((pnum (23 / 1000) * ppow Re (8 / 10) * ppow Pr (1 / 3) * psi) * k) / diameter
/-- heat_transfer_coefficients.py:296-336 `htc_cross_cylinder`. -/
def htcCrossCylinder (Re Pr diameter k : PyM (Val K)) : PyM (Val K) :=
  ((pnum (35 / 100) * ppow Pr (3 / 10) + pnum (56 / 100) * ppow Re (52 / 100) * ppow Pr (3 / 10)) * k) / diameter
/-- heat_transfer_coefficients.py:338-378 `htc_cross_sphere`. -/
def htcCrossSphere (Re Pr diameter k : PyM (Val K)) : PyM (Val K) :=
  ((pnum 2 + pnum (60 / 100) * ppow Re (1 / 2) * ppow Pr (1 / 3)) * k) / diameter
/-- heat_transfer_coefficients.py:380-409 `htc_short_pipe_correction`. -/
def htcShortPipe (h diameter L : PyM (Val K)) : PyM (Val K) := h * (pnum 1 + ppow (diameter / L) (7 / 10))

end

end Verif
