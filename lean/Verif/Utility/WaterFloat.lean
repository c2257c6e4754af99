import Verif.Utility.Water

/-!
# cheme_calculations/utility/get_chemical_properties.py in floating point

The same functions as in `Verif.Utility.Water` with every operation on floats followed by the rounding `r`.  The decimals
of the table are rounded when they are read, and so are integers that meet a float.  `floor` and `ceil` return Python ints,
arithmetic on which is exact.
-/

namespace Verif

variable (r : ℝ → ℝ)

/-- A table entry as a Python value. -/
def WCell.toFloat : WCell → WVal
  | .num q => .num (r q)
  | .str s => .str s

/-- `y1 == y2`, get_chemical_properties.py:52. -/
def WCell.sameFloat : WCell → WCell → Prop
  | .num a, .num b => r a = r b
  | .str a, .str b => a = b
  | _, _ => False

open Classical in
/-- get_chemical_properties.py:49-60, the loop body for one key: the value appended. -/
noncomputable def interpolateFl (T : ℝ) (lo up : ℤ) (key : Sym) (y1 y2 : WCell) : PyM WVal :=
  if WCell.sameFloat r y1 y2 then .ok (y1.toFloat r)
  else if key ≠ c!"Phase" then
    match y1, y2 with
    | .num a, .num b => match pyDiv (r (r b - r a)) (r ((up - lo : ℤ) : ℝ)) with
      | .error e => .error e
      | .ok s => .ok (.num (r (r a + r (r (T - r lo) * r s))))
    | _, _ => .error .typeError
  else .ok (y2.toFloat r)

/-- The loop over the property keys. -/
noncomputable def interpolateAllFl (T : ℝ) (lo up : ℤ) : List Sym → List WCell → List WCell → PyM (List WVal)
  | [], _, _ => .ok []
  | k :: ks, y1 :: r1, y2 :: r2 => match interpolateFl r T lo up k y1 y2 with
    | .error e => .error e
    | .ok v => match interpolateAllFl T lo up ks r1 r2 with
      | .error e => .error e
      | .ok vs => .ok (v :: vs)
  | _ :: _, _, _ => .error .keyError

/-- get_chemical_properties.py:44-62 `_get_property_data`. -/
noncomputable def getPropertyDataFl (T : ℝ) (lo up : ℤ) : PyM (List WVal) :=
  match waterRow lo with
  | .error e => .error e
  | .ok r1 => match waterRow up with
    | .error e => .error e
    | .ok r2 => match interpolateAllFl r T lo up waterKeys r1 r2 with
      | .error e => .error e
      | .ok vs => .ok (.num T :: vs)

/-- get_chemical_properties.py:66-116 `get_water_properties(temperature, False)`: the list. -/
noncomputable def waterDataFl (T : ℝ) : PyM (List WVal) :=
  if T ≥ 275 ∧ T ≤ 1345 then
    let lo := ⌊r (r (T - r 275) / r 10)⌋ * 10 + 275
    let up := ⌈r (r (T - r 275) / r 10)⌉ * 10 + 275
    getPropertyDataFl r T lo up
  else .error .outOfRange

/-- get_chemical_properties.py:66-116 `get_water_properties(temperature)`. -/
noncomputable def getWaterPropertiesFl (T : ℝ) : PyM Water :=
  match waterDataFl r T with
  | .error e => .error e
  | .ok l => waterInit l

end Verif
