import Verif.Units.Convert
import Verif.Utility.Constants

/-!
# Radiation and phase changes

Model of `cheme_calculations/heat_transfer/radiation.py` and `phase_changes.py`.
-/

namespace Verif

section
variable {K : Type} [Field K] [LinearOrder K] [PyPow K]

/-- `x._value`; a number has no such attribute. -/
def valueAttr : PyM (Val K) → PyM K
  | .error e => .error e
  | .ok (.unit u) => .ok u.value
  | .ok (.multi m) => .ok m.value
  | .ok _ => .error .attributeError

/-- radiation.py:7-22 `radiative_heat_flow`. -/
def radiativeHeatFlow (area viewFactor T1 T2 : PyM (Val K)) : PyM (Val K) :=
  match valueAttr (radiationConstant * area * viewFactor * (ppow T1 4 - ppow T2 4)) with
  | .error e => .error e
  | .ok v => qM c!"Power" v c!"W"

/-- phase_changes.py:8-68 `condensation_transfer_coefficient`; the two printed products of lines 60-63 are evaluated
again on line 65. -/
def condensationCoefficient (k rho g hvap numPipes T2 T1 diameter mu : PyM (Val K)) : PyM (Val K) :=
  pnum (729 / 1000) * ppow ((ppow k 3 * ppow rho 2 * g * hvap) / (numPipes * (T2 - T1) * diameter * mu)) (1 / 4)

/-- The value of phase_changes.py:103; `qa_max.convert_to("W/m^2")` on line 105 is not in place and its result is
discarded, so only its exceptions matter. -/
def fluxMaxBoilingValue (hvap rhoV rhoL tension g : PyM (Val K)) : PyM (Val K) :=
  pnum (15 / 100) * hvap * ppow rhoV (1 / 2) * ppow (tension * g * (rhoL - rhoV)) (1 / 4)

/-- phase_changes.py:70-107 `flux_max_boiling`: the conversion on line 105 may raise, its result is dropped. -/
def fluxMaxBoiling (T : Tables K) (hvap rhoV rhoL tension g : PyM (Val K)) : PyM (Val K) :=
  match fluxMaxBoilingValue hvap rhoV rhoL tension g with
  | .error e => .error e
  | .ok (.multi q) => match convertMulti T q c!"W/m^2" with
    | .error e => .error e
    | .ok _ => .ok (.multi q)
  | .ok (.unit q) => match convertUnit T q c!"W/m^2" with
    | .error e => .error e
    | .ok _ => .ok (.unit q)
  | .ok _ => .error .attributeError

end

end Verif
