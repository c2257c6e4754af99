import Verif.Units.MathFun
import Verif.Utility.Solve
import Verif.Utility.Dimensionless

/-!
# Heat exchangers

Model of `cheme_calculations/heat_transfer/heat_exchangers.py`.
-/

namespace Verif

/-- heat_exchangers.py:13-40 `equivalent_diameter`. -/
noncomputable def equivalentDiameter (area perimeter : PyM (Val ℝ)) : PyM (Val ℝ) := pnum 4 * (area / perimeter)

/-- heat_exchangers.py:43-71 `deltat_logmean`; line 63 reads `side_a_dif = T0A = T0B`, an assignment. -/
noncomputable def deltatLogmean (T0A T1A T0B T1B : PyM (Val ℝ)) (cocurrent : Bool := false) : PyM (Val ℝ) :=
  let a := if cocurrent then T0B else T0A - T1B
  let b := if cocurrent then T1A - T1B else T1A - T0B
  (a - b) / pyLog (a / b)

/-- heat_exchangers.py:83-94: the body of `solve_heat_exchanger_system`, which either raises or returns None. -/
def heatExchangerBody {V : Type} (s : Solving) : PyM (Option V) :=
  match s with
  | .many (x :: y :: _) =>
    if (x = c!"cp1" ∧ y = c!"m1") ∨ (x = c!"cp2" ∧ y = c!"m2") then .error .unsolvable else .ok none
  | .many _ => .error .indexError
  | .one name => match name with
    | _ :: _ :: _ => .ok none
    | _ => .error .indexError

/-- heat_exchangers.py:78-83. -/
def heatExchangerSig {V : Type} (false' : V) : Sig V where
  names := [c!"m1", c!"cp1", c!"m2", c!"cp2", c!"T0A", c!"T1A", c!"T0B", c!"T1B", c!"area", c!"U", c!"cocurrent"]
  defaults := some [false']

/-- heat_exchangers.py:77-94 `solve_heat_exchanger_system`. -/
def solveHeatExchanger {V : Type} (isNone : V → Bool) (false' : V) (args : List V) (kw : List (Sym × V)) :
    PyM (Option V) :=
  solvableFor isNone (heatExchangerSig false')
    [c!"m1", c!"m2", c!"cp1", c!"cp2", c!"T0A", c!"T1A", c!"T0B", c!"T1B", c!"area", c!"U"] 2
    (fun _ s => heatExchangerBody s) args kw

/-- heat_exchangers.py:115-120 `Ge_calc`. -/
noncomputable def geCalc (mShell Sb Sc : PyM (Val ℝ)) : PyM (Val ℝ) := ppow ((mShell / Sb) * (mShell / Sc)) (1 / 2)

/-- heat_exchangers.py:123-127 `Sb_calc`. -/
noncomputable def sbCalc (fb Ds Nb Do : PyM (Val ℝ)) : PyM (Val ℝ) :=
  fb * ((pyPi * ppow Ds 2) / pnum 4) - Nb * ((pyPi * ppow Do 2) / pnum 4)

/-- heat_exchangers.py:129-133 `Sc_calc`. -/
noncomputable def scCalc (P Ds Do p : PyM (Val ℝ)) : PyM (Val ℝ) := P * Ds * (pnum 1 - Do / p)

/-- heat_exchangers.py:135-140 `htc_shell`. -/
noncomputable def htcShell (Do Ge mu Pr k psi : PyM (Val ℝ)) : PyM (Val ℝ) :=
  let Nu := pnum (2 / 10) * ppow ((Do * Ge) / mu) (6 / 10) * ppow Pr (33 / 100) * psi
  (Nu * k) / Do

/-- heat_exchangers.py:97-109 `shell_htc_full`. -/
noncomputable def shellHtcFull (fb Ds Do Nb P p mShell muShell cpShell kShell : PyM (Val ℝ)) : PyM (Val ℝ) :=
  let Sb := sbCalc fb Ds Nb Do
  let Sc := scCalc P Ds Do p
  let Ge := geCalc mShell Sb Sc
  match (Do * Ge) / muShell with
  | .error e => .error e
  | .ok _ => htcShell Do Ge muShell (prandtl muShell cpShell kShell) kShell (pnum 1)

/-- heat_exchangers.py:142-160 `z_factor`. -/
noncomputable def zFactor (hotIn hotOut coldIn coldOut : PyM (Val ℝ)) : PyM (Val ℝ) :=
  (hotIn - hotOut) / (coldOut - coldIn)

/-- heat_exchangers.py:163-168 `nh_factor`. -/
noncomputable def nhFactor (hotIn coldIn coldOut : PyM (Val ℝ)) : PyM (Val ℝ) :=
  (coldOut - coldIn) / (hotIn - coldIn)

end Verif
