import Verif.Units.MathFun

/-!
# Physical constants

Model of `cheme_calculations/utility/constants.py`.
-/

namespace Verif

section
variable {K : Type} [Field K] [LinearOrder K] [PyPow K]

/-- constants.py:11. -/
def boltzmann : PyM (Val K) := qMulti (1380649 / 10 ^ 29) c!"m^2*kg/s^2*K"
/-- constants.py:12. -/
def avogadro : PyM (Val K) := qU .unit (602214076 * 10 ^ 15) c!"mol" (-1)
/-- constants.py:13. -/
def planck : PyM (Val K) := qMulti (662607015 / 10 ^ 42) c!"m^2*kg/s"
/-- constants.py:14. -/
def radiationConstant : PyM (Val K) := qMulti (5670 / 10 ^ 11) c!"W/m^2*K^4"
/-- constants.py:15. -/
def faraday : PyM (Val K) := qMulti 96500 c!"C/mol"

/-- constants.py:17-30 `get_gas_constant`. -/
def getGasConstant (temperature : Sym := c!"K") (volume : Sym := c!"m^3") (pressure : Sym := c!"Pa")
    (generic : Bool := false) : PyM (Val K) :=
  if generic then qMulti (8314 / 1000) c!"J/mol*K"
  else if volume = c!"m^3" ∧ pressure = c!"Pa" ∧ temperature = c!"K" then qMulti (8314 / 1000) c!"m^3*Pa/mol*K"
  else if volume = c!"L" ∧ pressure = c!"atm" ∧ temperature = c!"K" then qMulti (8205 / 100000) c!"L*atm/mol*K"
  else if volume = c!"m^3" ∧ pressure = c!"atm" ∧ temperature = c!"K" then
    qMulti (8205746 / 10 ^ 11) c!"m^3*atm/mol*K"
  else .error .valueError

end

end Verif
