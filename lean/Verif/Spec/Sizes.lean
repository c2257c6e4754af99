import Verif.Units.Convert
import Mathlib.Data.Real.Basic

/-! # Published sizes of units and the temperature scales

Not taken from the code: SI prefixes, the international yard and pound (1959), standard atmosphere, the International
Table BTU, standard gravity for lbf. -/

namespace Verif

/-- SI prefixes, including micro. -/
def siPrefix (c : Char) : Option ℚ :=
  if c = 'u' then some (1 / 10 ^ 6) else if c = 'm' then some (1 / 10 ^ 3) else if c = 'c' then some (1 / 10 ^ 2)
  else if c = 'd' then some (1 / 10) else if c = 'k' then some (10 ^ 3) else if c = 'M' then some (10 ^ 6) else none

/-- Units that take prefixes, with their SI size. -/
def siStems : List (Sym × ℚ) := [(c!"m", 1), (c!"g", 1 / 1000), (c!"J", 1), (c!"Pa", 1), (c!"N", 1)]

/-- Other units, with their published SI size. -/
def published : List (Sym × ℚ) :=
  [(c!"in", 254 / 10000), (c!"ft", 3048 / 10000), (c!"yd", 9144 / 10000), (c!"mile", 1609344 / 1000),
   (c!"s", 1), (c!"min", 60), (c!"hr", 3600), (c!"day", 86400),
   (c!"lb", 45359237 / 100000000), (c!"BTU", 1055056 / 1000), (c!"lbf", 44482216152605 / 10000000000000),
   (c!"psi", 6894757 / 1000), (c!"atm", 101325), (c!"bar", 100000), (c!"mmHg", 133322387415 / 1000000000)]

/-- The SI size of a unit of one of the linear classes. -/
def physSize (s : Sym) : Option ℚ :=
  match lookupSym s published with
  | some q => some q
  | none => match lookupSym s siStems with
    | some q => some q
    | none => match s with
      | [] => none
      | c :: st => match siPrefix c, lookupSym st siStems with
        | some p, some q => some (p * q)
        | _, _ => none

/-- The four temperature scales. -/
inductive Scale | K | C | R | F
  deriving DecidableEq

/-- Symbol of a scale. -/
def Scale.sym : Scale → Sym
  | .K => c!"K" | .C => c!"C" | .R => c!"R" | .F => c!"F"

/-- Thermodynamic temperature of a reading. -/
noncomputable def Scale.kelvin : Scale → ℝ → ℝ
  | .K, x => x
  | .C, x => x + 273.15
  | .R, x => x * (5 / 9)
  | .F, x => (x + 459.67) * (5 / 9)

/-- The classes whose tables are linear. -/
def linearClasses : List UCls := [.pressure, .length, .time, .energy, .mass, .force]

/-- The unit names a table lists. -/
def tableKeys (T : Tables ℝ) (c : UCls) : List Sym :=
  match T c with
  | none => []
  | some t => t.toStd.map (·.1)

end Verif
