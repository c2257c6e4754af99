import Verif.Units.MathFun
import Verif.Utility.Constants

/-!
# Diffusion coefficients

Model of `cheme_calculations/mass_transfer/diffusion_coefficients.py`.  Simplification: when the result handed to
`DiffusionCoefficient(...)` is a `Unit` (or an instance of a subclass of `MultiUnit`), Python stores that object in the
value field; the model has numbers there only and reports `notRepresentable`.
-/

namespace Verif

/-- Lines 55-58 and 182-185: cast the answer to `cm^2/s`, dividing the value of a `MultiUnit` by `scale`. -/
noncomputable def castDiffusion (scale : ℝ) (answer : PyM (Val ℝ)) : PyM (Val ℝ) :=
  match answer with
  | .error e => .error e
  | .ok (.multi m) =>
    if m.cls = .multi then qM c!"DiffusionCoefficient" (m.value / scale) c!"cm^2/s" else .error .notRepresentable
  | .ok (.num x) => qM c!"DiffusionCoefficient" x c!"cm^2/s"
  | .ok _ => .error .notRepresentable

/-- diffusion_coefficients.py:12-58 `wilke_chang`. -/
noncomputable def wilkeChang (temperature thetaB weightB viscosityB volumeA : PyM (Val ℝ)) : PyM (Val ℝ) :=
  castDiffusion 1 ((pnum (74 / 10 ^ 9) * ppow (thetaB * weightB) (1 / 2) * temperature) /
    (viscosityB * ppow volumeA (6 / 10)))

/-- diffusion_coefficients.py:61-91 `stokes_einstein`. -/
noncomputable def stokesEinstein (T mu R : PyM (Val ℝ)) : PyM (Val ℝ) :=
  (boltzmann * T) / (pnum 6 * pyPi * mu * R)

/-- diffusion_coefficients.py:93-132 `ionic_diffusion_coefficient`. -/
noncomputable def ionicDiffusion (R T nPlus nMinus lambdaPlus lambdaMinus : PyM (Val ℝ)) : PyM (Val ℝ) :=
  (R * T * ((pnum 1 / nPlus) + (pnum 1 / nMinus))) /
    (ppow faraday 2 * ((pnum 1 / lambdaPlus) + (pnum 1 / lambdaMinus)))

/-- Evaluate `check_units(u, unit, name)` before the rest of the function. -/
def guardUnits {K : Type} [Zero K] [One K] [Add K] [Sub K] [Mul K] [Div K] [Neg K] [NatCast K] [RatCast K] [LinearOrder K] [PyPow K] (u : PyM (Val K)) (unit : Sym) (rest : PyM (Val K)) :
    PyM (Val K) :=
  match u with
  | .error e => .error e
  | .ok v => match checkUnits v unit with
    | .error e => .error e
    | .ok _ => rest

/-- diffusion_coefficients.py:134-185 `fullers`. -/
noncomputable def fullers (T P Ma Mb EvA EvB : PyM (Val ℝ)) : PyM (Val ℝ) :=
  guardUnits T c!"K" <| guardUnits P c!"atm" <| guardUnits Ma c!"g/mol" <| guardUnits Mb c!"g/mol" <|
  guardUnits EvA c!"cm^3/mol" <| guardUnits EvB c!"cm^3/mol" <|
  let mAB := pnum 2 / ((pnum 1 / Ma) + (pnum 1 / Mb))
  castDiffusion 10000 ((pnum (143 / 100000) * ppow T (175 / 100)) /
    (P * ppow mAB (5 / 10) * ppow (ppow EvA (1 / 3) + ppow EvB (1 / 3)) 2))

end Verif
