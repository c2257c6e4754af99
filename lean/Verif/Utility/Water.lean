import Verif.Utility.WaterData
import Verif.Units.Expr
import Verif.Units.Real
import Mathlib.Algebra.Order.Floor.Ring

/-!
# cheme_calculations/utility/get_chemical_properties.py

Exact real arithmetic; temperatures are plain numbers.
-/

namespace Verif

/-- An entry of the returned list. -/
inductive WVal
  | num (x : ℝ)
  | str (s : Sym)

/-- A table entry as a Python value. -/
def WCell.toVal : WCell → WVal
  | .num q => .num q
  | .str s => .str s

/-- `data[key]` on the table; KeyError if absent. -/
def waterRow (key : ℤ) : PyM (List WCell) :=
  match waterTable.find? (fun r => r.1 = (key : ℚ)) with
  | some r => .ok r.2
  | none => .error .keyError

/-- get_chemical_properties.py:50-60, the loop body for one key: the value appended. -/
noncomputable def interpolate (T : ℝ) (lo up : ℤ) (key : Sym) (y1 y2 : WCell) : PyM WVal :=
  if y1 = y2 then .ok y1.toVal
  else if key ≠ c!"Phase" then
    match y1, y2 with
    | .num a, .num b => match pyDiv ((b : ℝ) - a) ((up : ℝ) - lo) with
      | .error e => .error e
      | .ok s => .ok (.num (a + (T - lo) * s))
    | _, _ => .error .typeError
  else .ok y2.toVal

/-- The loop over the property keys (the rows hold the columns in the order of the keys). -/
noncomputable def interpolateAll (T : ℝ) (lo up : ℤ) : List Sym → List WCell → List WCell → PyM (List WVal)
  | [], _, _ => .ok []
  | k :: ks, y1 :: r1, y2 :: r2 => match interpolate T lo up k y1 y2 with
    | .error e => .error e
    | .ok v => match interpolateAll T lo up ks r1 r2 with
      | .error e => .error e
      | .ok vs => .ok (v :: vs)
  | _ :: _, _, _ => .error .keyError

/-- get_chemical_properties.py:44-62 `_get_property_data`. -/
noncomputable def getPropertyData (T : ℝ) (lo up : ℤ) : PyM (List WVal) :=
  match waterRow lo with
  | .error e => .error e
  | .ok r1 => match waterRow up with
    | .error e => .error e
    | .ok r2 => match interpolateAll T lo up waterKeys r1 r2 with
      | .error e => .error e
      | .ok vs => .ok (.num T :: vs)

/-- get_chemical_properties.py:66-116 `get_water_properties(temperature, False)`: the list. -/
noncomputable def waterData (T : ℝ) : PyM (List WVal) :=
  if T ≥ 275 ∧ T ≤ 1345 then
    let lo := ⌊(T - 275) / 10⌋ * 10 + 275
    let up := ⌈(T - 275) / 10⌉ * 10 + 275
    getPropertyData T lo up
  else .error .outOfRange

/-- A `Water` object: its attributes, get_chemical_properties.py:20-31. -/
structure Water where
  temperature : Val ℝ
  pressure : Val ℝ
  cp : Val ℝ
  cv : Val ℝ
  density : Val ℝ
  enthalpy : Val ℝ
  entropy : Val ℝ
  internalEnergy : Val ℝ
  phase : Sym
  thermalConductivity : Val ℝ
  viscosity : Val ℝ
  specificVolume : Val ℝ

/-- get_chemical_properties.py:15-31 `Water.__init__(*args)`.  The parameters are, in order, pressure, temperature, cp,
cv, density, enthalpy, entropy, internal_energy, phase, thermal_conductivity, viscosity, specific_volume.  Arguments of
other types than in the table do not occur (`notRepresentable`). -/
def waterInit (args : List WVal) : PyM Water :=
  match args with
  | [.num pressure, .num temperature, .num cp, .num cv, .num density, .num enthalpy, .num entropy, .num internalEnergy,
      .str phase, .num thermalConductivity, .num viscosity, .num specificVolume] =>
    (qU .temperature temperature c!"K").bind fun t =>
    (qU .pressure pressure c!"MPa").bind fun p =>
    (qM c!"Cp" cp c!"J/g*K").bind fun a =>
    (qM c!"Cv" cv c!"J/g*K").bind fun b =>
    (qM c!"Density" density c!"kg/m^3").bind fun d =>
    (qM c!"Enthalpy" enthalpy c!"kJ/kg").bind fun h =>
    (qM c!"Entropy" entropy c!"J/g*K").bind fun s =>
    (qM c!"InternalEnergy" internalEnergy c!"kJ/kg").bind fun u =>
    (qM c!"ThermalConductivity" thermalConductivity c!"W/m*K").bind fun k =>
    (qM c!"DynamicViscosity" viscosity c!"uPa*s").bind fun m =>
    (qM c!"SpecificVolume" specificVolume c!"m^3/kg").bind fun v =>
    .ok ⟨t, p, a, b, d, h, s, u, phase, k, m, v⟩
  | _ => .error .notRepresentable

/-- get_chemical_properties.py:66-116 `get_water_properties(temperature)`. -/
noncomputable def getWaterProperties (T : ℝ) : PyM Water :=
  match waterData T with
  | .error e => .error e
  | .ok l => waterInit l

/-- get_chemical_properties.py:37-40, the setter `w.temperature = temp`: the new state of the object and the exception
raised, if any.  The exception is raised before any attribute is assigned. -/
noncomputable def setTemperature (w : Water) (T : ℝ) : Water × Option Err :=
  match waterData T with
  | .error e => (w, some e)
  | .ok l => match waterInit l with
    | .error e => (w, some e)
    | .ok w' => (w', none)

end Verif
