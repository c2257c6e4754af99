import Verif.Units.Ops

/-!
# Conversion of compound quantities

Model of units.py lines 795-922 and 1465-1481.
-/

namespace Verif

section
variable {K : Type} [Zero K] [One K] [Add K] [Sub K] [Mul K] [Div K] [Neg K] [NatCast K] [RatCast K] [LinearOrder K] [PyPow K]

/-- units.py:816: the class registered for a symbol applied to value 1. -/
def toUnitObj (x : BaseUnit) : PyM (UnitV K) :=
  match getUnitClass x.unit with
  | .error e => .error e
  | .ok c => mkUnit c 1 x.unit x.exp

/-- units.py:815-819 `base_to_unit`. -/
def baseToUnit (top bot : UList) : PyM (List (UnitV K) × List (UnitV K)) :=
  match mapPy (toUnitObj (K := K)) top with
  | .error e => .error e
  | .ok t => match mapPy (toUnitObj (K := K)) bot with
    | .error e => .error e
    | .ok b => .ok (t, b)

/-- units.py:831 and 264-275 for the target string `f"{standard}^{exponent}"`.  Printing and re-reading a finite Python
number is exact, so the exponent comes back; a standard that itself contains `^` makes the split fail. -/
def parseStdTarget (self std : Sym) (e : ℚ) : PyM (Sym × Sym × ℚ) :=
  if '^' ∈ std then .error .valueError
  else if self ∈ unitComposites then .ok (std ++ '^' :: c!"(printed exponent)", std, e)
  else .ok (std, std, e)

/-- units.py:821-832 `convert_and_get_factor`: the unit after conversion to the standard of its class. -/
def convertAndGetFactor (T : Tables K) (u : UnitV K) : PyM (UnitV K) :=
  if u.unit = c!"K" ∨ u.unit = c!"C" then
    .ok { u with value := u.value * (1 * (u.exp : K)) }
  else if u.unit = c!"R" ∨ u.unit = c!"F" then
    .ok { u with value := u.value * (((5 / 9 : ℚ) : K) * (u.exp : K)) }
  else match standardOf u.cls with
    | none => .error .attributeError
    | some std =>
      if u.exp = 1 then convertUnit T u std
      else match parseStdTarget u.unit std u.exp with
        | .error e => .error e
        | .ok (tgt, ret, e) => convertParsed T u tgt ret e

/-- units.py:873-875, 888-890: multiply the factors of the numerator. -/
def factorTop (T : Tables K) : K → List (UnitV K) → PyM (K × UList)
  | f, [] => .ok (f, [])
  | f, u :: us => match convertAndGetFactor T u with
    | .error e => .error e
    | .ok u' => match factorTop T (f * u'.value) us with
      | .error e => .error e
      | .ok (f', l) => .ok (f', ⟨u'.unit, u'.exp⟩ :: l)

/-- units.py:876-879, 891-893: divide by the factors of the denominator. -/
def factorBot (T : Tables K) : K → List (UnitV K) → PyM (K × UList)
  | f, [] => .ok (f, [])
  | f, u :: us => match convertAndGetFactor T u with
    | .error e => .error e
    | .ok u' => match pyDiv 1 u'.value with
      | .error e => .error e
      | .ok r => match factorBot T (f * r) us with
        | .error e => .error e
        | .ok (f', l) => .ok (f', ⟨u'.unit, u'.exp⟩ :: l)

/-- units.py:856-858 and 862-864: prefixes, one deconstruction pass, unit objects. -/
def convertStart (top bot : UList) : PyM (List (UnitV K) × List (UnitV K) × K) :=
  match deconstructPrefixes (K := K) top bot with
  | .error e => .error e
  | .ok (t, b, f) => match deconstructOnce t b with
    | .error e => .error e
    | .ok (t, b) => match baseToUnit (K := K) t b with
      | .error e => .error e
      | .ok (t, b) => .ok (t, b, f)

/-- Total exponent of a class in a list of units, for the tally of units.py:900-914. -/
def classTotal (c : UCls) (l : List (UnitV K)) : PyM ℚ :=
  match mapPy (fun u : UnitV K => getUnitClass u.unit) l with
  | .error e => .error e
  | .ok cs => .ok ((cs.zip l).map fun p => if p.1 = c then p.2.exp else 0).sum

/-- Numerator minus denominator for one class, units.py:903-914. -/
def classDiff (t b : List (UnitV K)) (c : UCls) : PyM ℚ :=
  match classTotal c t with
  | .error e => .error e
  | .ok x => match classTotal c b with
    | .error e => .error e
    | .ok y => .ok (x - y)

/-- The classes that occur as values of `get_unit_class`. -/
def allClasses : List UCls :=
  [.unit, .temperature, .pressure, .length, .time, .energy, .mass, .current, .amount, .force, .volume, .area]

/-- units.py:872-883 (and 887-896): factor to standard units, and the tally per class of the fully deconstructed unit
(numerator minus denominator, units.py:903-914; a dictionary without zero entries is the function to its values). -/
def convertFinish (T : Tables K) (s : List (UnitV K) × List (UnitV K) × K) :
    PyM (K × List ℚ) :=
  match factorTop T (1 * s.2.2) s.1 with
  | .error e => .error e
  | .ok (f, t) => match factorBot T f s.2.1 with
    | .error e => .error e
    | .ok (f, b) => match deconstructUnits t b with
      | .error e => .error e
      | .ok (t, b) => match baseToUnit (K := K) t b with
        | .error e => .error e
        | .ok (t, b) =>
          match mapPy (classDiff t b) allClasses with
          | .error e => .error e
          | .ok tally => .ok (f, tally)

/-- units.py:835-922 `MultiUnit.convert_to`. -/
def convertMulti (T : Tables K) (m : MultiV K) (unit : Sym) : PyM (MultiV K) :=
  match parseUnits unit with
  | .error e => .error e
  | .ok (ct, cb) => match convertStart (K := K) ct cb with
    | .error e => .error e
    | .ok right => match convertStart (K := K) m.top m.bot with
      | .error e => .error e
      | .ok left => match convertFinish T left with
        | .error e => .error e
        | .ok (lf, ltally) => match convertFinish T right with
          | .error e => .error e
          | .ok (rf, rtally) =>
            if rtally ≠ ltally then .error .unitConversion
            else match pyDiv lf rf with
              | .error e => .error e
              | .ok q => mkMulti m.cls (m.value * q) unit

/-- units.py:795-813 `get_exponent_total`. -/
def exponentTotal (m : MultiV K) : ℚ :=
  m.bot.foldl (fun n u => n + u.exp) (m.top.foldl (fun n u => n + u.exp) 0)

/-- units.py:1465-1481 `check_units`: returns None or raises.  The message of the last branch reads `u._unit`, which a
MultiUnit does not have. -/
def checkUnits : Val K → Sym → PyM Unit
  | .unit u, s => if u.unit = s then .ok () else .error .incorrectUnits
  | .multi m, s => match parseUnits s with
    | .error e => .error e
    | .ok (t, b) => if m.top = t ∧ m.bot = b then .ok () else .error .attributeError
  | .bare, _ => .error .indexError
  | _, _ => .ok ()

end

end Verif
