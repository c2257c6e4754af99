import Verif.Units.Convert
import Verif.HeatTransfer.Radiation
import Verif.HeatTransfer.Conduction

/-!
# Replay of the repository's own unit tests in the model

These are *tests* of the model (kernel evaluation on literals), not properties. They cover
tests/test_unit_conversions.py, test_unit_deconstruction.py, test_unit_prefixes.py, test_units_operations.py,
test_equation_solving.py and test_heat_transfer.py as far as exact rational arithmetic can express them, and examples
from the docstrings of units.py.
-/

namespace Verif.Replay

/-- `cls(value, "unit")` for a compound class. -/
def M (v : ℚ) (s : Sym) (c : MCls := .multi) : Val ℚ :=
  match mkMulti c v s with
  | .ok m => .multi m
  | .error _ => .none

/-- `cls(value, "unit", exponent)` for a simple class. -/
def U (c : UCls) (v : ℚ) (s : Sym) (e : ℚ := 1) : Val ℚ :=
  match mkUnit c v s e with
  | .ok m => .unit m
  | .error _ => .none

/-- The operation returned a value `==` to the expected one. -/
def gives (r : PyM (Val ℚ)) (x : Val ℚ) : Bool :=
  match r with
  | .ok y => Val.eq y x
  | .error _ => false

/-- `a.convert_to(s)`. -/
def conv (a : Val ℚ) (s : Sym) : PyM (Val ℚ) :=
  match a with
  | .unit u => wrapUnit (convertUnit stdTables u s)
  | .multi m => match convertMulti stdTables m s with
    | .ok m => .ok (.multi m)
    | .error e => .error e
  | _ => .error .attributeError

-- test_unit_conversions.py
example : gives (conv (M 3 c!"m/s") c!"cm/s") (M 300 c!"cm/s") = true := by decide +kernel
example : gives (conv (M 1 c!"cP") c!"kg/s*m") (M (1/1000) c!"kg/m*s") = true := by decide +kernel
example : gives (conv (M 5 c!"m^3") c!"cm^3") (M 5000000 c!"cm^3") = true := by decide +kernel
example : gives (conv (M 1 c!"g/cm*s") c!"kg/m*s") (M (1/10) c!"kg/m*s") = true := by decide +kernel
example : gives (conv (M 1 c!"g/cm^3") c!"kg/m^3") (M 1000 c!"kg/m^3") = true := by decide +kernel
example : gives (conv (M 1000 c!"L/s") c!"m^3/s") (M 1 c!"m^3/s") = true := by decide +kernel
example : gives (conv (M 1 c!"L/s") c!"cm^3/s") (M 1000 c!"cm^3/s") = true := by decide +kernel
example : gives (conv (M 101325 c!"Pa*m") c!"atm*m") (M 1 c!"atm*m") = true := by decide +kernel
example : gives (conv (M 100 c!"W/m^2") c!"kg/s^3") (M 100 c!"kg/s^3") = true := by decide +kernel
example : gives (conv (M 100 c!"W/m^2*K") c!"kg/s^3*K") (M 100 c!"kg/s^3*K") = true := by decide +kernel
example : gives (conv (M 1 c!"kW/m") c!"W/m") (M 1000 c!"W/m") = true := by decide +kernel
example : gives (conv (M 1000 c!"mPa*m/kg") c!"Pa*m/kg") (M 1 c!"Pa*m/kg") = true := by decide +kernel
example : gives (conv (M 1 c!"kg/mol") c!"g/mol") (M 1000 c!"g/mol") = true := by decide +kernel
-- approximate expectations of the test file, here the exact value of the model
example : gives (conv (M 1 c!"W/m^2*K") c!"BTU/hr*ft^2*F")
    (M ((3600 * (3048/10000)^2 * (5/9)) / (1055056/1000)) c!"BTU/hr*ft^2*F") = true := by decide +kernel
example : |((3600 * (3048/10000)^2 * (5/9)) / (1055056/1000) : ℚ) - 17611/100000| < 1/1000000 := by decide +kernel
example : gives (conv (M 3 c!"m^2/s") c!"cm^2/s") (M 30000 c!"cm^2/s") = true := by decide +kernel
-- the repository's test expects Volume(2000, "dm^3"); the code raises UnitConversionError
example : conv (U .volume 2 c!"m^3") c!"dm^3" = .error .unitConversion := by decide +kernel
example : gives (conv (U .temperature 300 c!"C") c!"K") (U .temperature (57315/100) c!"K") = true := by decide +kernel
example : gives (conv (U .temperature 300 c!"C") c!"F") (U .temperature 572 c!"F") = true := by decide +kernel
example : gives (conv (U .temperature 350 c!"C") c!"R") (U .temperature (112167/100) c!"R") = true := by decide +kernel
example : gives (conv (U .temperature 350 c!"F") c!"R") (U .temperature (80967/100) c!"R") = true := by decide +kernel
example : gives (conv (U .temperature 350 c!"K") c!"F") (U .temperature (17033/100) c!"F") = true := by decide +kernel
example : gives (conv (U .temperature 350 c!"K") c!"R") (U .temperature 630 c!"R") = true := by decide +kernel
example : gives (conv (U .temperature 350 c!"R") c!"F") (U .temperature (-10967/100) c!"F") = true := by decide +kernel
example : gives (conv (U .temperature 350 c!"K" 2) c!"K^2") (U .temperature 350 c!"K" 2) = true := by decide +kernel
example : gives (conv (U .temperature (27515/100) c!"K" 2) c!"C^2") (U .temperature 4 c!"C" 2) = true := by decide +kernel
example : gives (conv (U .pressure 1 c!"atm") c!"Pa") (U .pressure 101325 c!"Pa") = true := by decide +kernel
example : gives (conv (U .pressure 1 c!"atm") c!"bar") (U .pressure (101325/100000) c!"bar") = true := by decide +kernel
example : gives (conv (U .pressure 1 c!"atm") c!"kPa") (U .pressure (101325/1000) c!"kPa") = true := by decide +kernel
example : gives (conv (U .pressure (101325/1000) c!"kPa") c!"atm") (U .pressure 1 c!"atm") = true := by decide +kernel

-- test_unit_deconstruction.py
example : gives ((M 1 c!"kg^2/m*s^3").div (M 1 c!"kg/s")) (U .unit 1 c!"Pa") = true := by decide +kernel
example : gives ((M 1 c!"J^2/s^2").div (M 1 c!"J/s")) (U .unit 1 c!"W") = true := by decide +kernel
example : gives ((U .pressure 50 c!"Pa").div (M 50 c!"kg/m*s^2")) (.num 1) = true := by decide +kernel
example : gives ((M 50 c!"kg/m*s^2").div (U .pressure 50 c!"Pa")) (.num 1) = true := by decide +kernel
example : gives ((U .pressure 50 c!"Pa").div (M 50 c!"kg/m")) (U .unit 1 c!"s" (-2)) = true := by decide +kernel
example : gives ((M 50 c!"W" (.sub c!"Power")).div (M 50 c!"J/s")) (.num 1) = true := by decide +kernel
example : gives ((M 50 c!"W" (.sub c!"Power")).div (U .time 50 c!"s" (-1))) (U .unit 1 c!"J") = true := by decide +kernel
example : simplifyUnits [⟨c!"J", 1⟩] [⟨c!"s", 1⟩] = .ok ([⟨c!"W", 1⟩], []) := by decide +kernel
example : simplifyUnits [⟨c!"kg", 1⟩, ⟨c!"m", 2⟩] [⟨c!"s", 3⟩] = .ok ([⟨c!"W", 1⟩], []) := by decide +kernel

-- test_unit_prefixes.py
example : deconstructPrefixes (K := ℚ) [⟨c!"kW", 1⟩] [⟨c!"km", 1⟩] = .ok ([⟨c!"W", 1⟩], [⟨c!"m", 1⟩], 1) := by
  decide +kernel
example : gives ((M 1 c!"MW/Mm").div (M 1 c!"kg/s")) (M 1 c!"m/s^2") = true := by decide +kernel
example : gives ((M 1 c!"kJ/s").mul (M 1 c!"J/s")) (M 1000 c!"W^2") = true := by decide +kernel

-- test_units_operations.py
example : gives ((U .temperature 350 c!"K").add (.num 50)) (U .temperature 400 c!"K") = true := by decide +kernel
example : gives ((U .temperature 350 c!"K").add (U .temperature 350 c!"K")) (U .temperature 700 c!"K") = true := by
  decide +kernel
example : (U .unit 1 c!"K").add (M 2 c!"K/W") = .error .typeError := by decide +kernel
example : (U .unit 1 c!"K").add (U .unit 1 c!"Pa") = .error .typeError := by decide +kernel
example : (M 2 c!"K/W").add (M 4 c!"m/s") = .error .typeError := by decide +kernel
example : (M 2 c!"K/W").sub (M 4 c!"m/s") = .error .typeError := by decide +kernel
example : gives ((U .temperature 350 c!"K").sub (.num 50)) (U .temperature 300 c!"K") = true := by decide +kernel
example : gives ((U .temperature 350 c!"K").mul (.num 2)) (U .temperature 700 c!"K") = true := by decide +kernel
example : gives ((U .temperature 350 c!"K").mul (U .temperature 2 c!"K")) (U .temperature 700 c!"K" 2) = true := by
  decide +kernel
example : gives ((M 350 c!"J/s").mul (U .unit 1 c!"s")) (U .unit 350 c!"J") = true := by decide +kernel
example : gives ((M 1 c!"kg/m^3").mul (M 1 c!"m^2/s")) (M 1 c!"kg/m*s") = true := by decide +kernel
example : gives ((U .temperature 350 c!"K").div (.num 2)) (U .temperature 175 c!"K") = true := by decide +kernel
example : gives ((U .temperature 350 c!"K").div (U .temperature 2 c!"K")) (.num 175) = true := by decide +kernel
example : gives ((U .temperature 350 c!"K" 2).div (U .temperature 2 c!"K")) (U .temperature 175 c!"K") = true := by
  decide +kernel
example : gives ((M 50 c!"m^2/s^2").div (M 10 c!"m/s")) (M 5 c!"m/s") = true := by decide +kernel
example : gives ((U .temperature 50 c!"K").div (M 50 c!"K/s")) (U .unit 1 c!"s") = true := by decide +kernel
example : gives ((M 1 c!"m/kg^2").div (M 1 c!"m/kg")) (U .unit 1 c!"kg" (-1)) = true := by decide +kernel
example : Val.eq (M 3 c!"kg/m*s") (M 3 c!"kg/s*m") = true := by decide +kernel

-- test_equation_solving.py, with the quantities of standard_values.py
def k0 : Val ℚ := M (6/10) c!"W/m*K" (.sub c!"ThermalConductivity")
def T0 : Val ℚ := U .temperature (29825/100) c!"K"
def T4 : Val ℚ := U .temperature 400 c!"K"
def A0 : Val ℚ := U .area 1 c!"m^2"
def L0 : Val ℚ := U .length 1 c!"m"
def q0 : Val ℚ := M 500 c!"W" (.sub c!"Power")
example : planarHeat [k0, T0, T4, A0, L0, q0] [] = .error .overSpecified := by decide +kernel
example : planarHeat [k0, .none, T4, A0, L0] [] = .error .unsolvable := by decide +kernel
example : planarHeat [.none, T0, T4, A0, L0, q0] [] = .error .solutionNotSupported := by decide +kernel

-- test_heat_transfer.py
example : gives (radiativeHeatFlow (.ok A0) (.ok (.num 1)) (.ok (U .temperature 1600 c!"K")) (.ok T4))
    (M (3701376/10) c!"W" (.sub c!"Power")) = true := by decide +kernel

-- docstrings of units.py
example : cancelUnits [⟨c!"kg", 1⟩, ⟨c!"m", 1⟩] [⟨c!"m", 2⟩] = ([⟨c!"kg", 1⟩], [⟨c!"m", 1⟩]) := by decide +kernel
-- a factor that was combined into another one stays, with exponent zero
example : combineUnits [⟨c!"m", 1⟩, ⟨c!"m", 1⟩] = [⟨c!"m", 0⟩, ⟨c!"m", 2⟩] := by decide +kernel
example : parseUnits c!"m/s" = .ok ([⟨c!"m", 1⟩], [⟨c!"s", 1⟩]) := by decide +kernel
example : deconstructUnits [⟨c!"Pa", 1⟩] [⟨c!"K", 1⟩] =
    .ok ([⟨c!"kg", 1⟩], [⟨c!"K", 1⟩, ⟨c!"m", 1⟩, ⟨c!"s", 2⟩]) := by decide +kernel
example : exponentTotal (K := ℚ) ⟨.multi, 5, [⟨c!"m", 2⟩], [⟨c!"s", 2⟩]⟩ = 4 := by decide +kernel

end Verif.Replay
