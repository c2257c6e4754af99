import Verif.Units.Basic

/-!
# Unit classes, their conversion tables, and simple conversion

Model of units.py lines 45-105 (registry), 127-141 (registration), 144-172 and 253-300 (`Unit`), 1192-1463
(the unit classes).
-/

namespace Verif

/-- The classes `Unit` and its direct subclasses (units.py:144, 1192-1449). -/
inductive UCls
  | unit | temperature | pressure | length | time | energy | mass | current | amount | force | volume | area
  deriving DecidableEq, Repr

/-- units.py:162-172: an instance of `Unit` or of one of its subclasses. -/
structure UnitV (K : Type) where
  cls : UCls
  value : K
  unit : Sym
  exp : ℚ
  deriving DecidableEq, Repr

/-- units.py:33 `prefixes`. -/
def allPrefixes : List Char := ['u', 'm', 'c', 'd', 'k', 'M']

/-- The list comprehension `[f"{x}{y}" for x in prefixes for y in stems]` (e.g. units.py:49). -/
def prefixed (stems : List Sym) : List Sym :=
  allPrefixes.flatMap fun p => stems.map fun s => p :: s

/-- units.py:45. -/
def temperatureUnits : List Sym := [c!"K", c!"C", c!"R", c!"F"]
/-- units.py:48-50. -/
def lengthUnits : List Sym := prefixed [c!"m"] ++ [c!"m", c!"ft", c!"in", c!"yd", c!"mile"]
/-- units.py:53. -/
def currentUnits : List Sym := [c!"A"]
/-- units.py:56. -/
def timeUnits : List Sym := [c!"s", c!"min", c!"hr", c!"day"]
/-- units.py:59-61. -/
def massUnits : List Sym := prefixed [c!"g"] ++ [c!"g", c!"lb"]
/-- units.py:64-66. -/
def energyUnits : List Sym := prefixed [c!"J"] ++ [c!"J", c!"BTU"]
/-- units.py:69-71. -/
def pressureUnits : List Sym :=
  prefixed [c!"Pa"] ++ [c!"psi", c!"Pa", c!"atm", c!"bar", c!"mmHg"]
/-- units.py:74-76. -/
def forceUnits : List Sym := prefixed [c!"N"] ++ [c!"N", c!"lbf"]
/-- units.py:79-81. -/
def volumeUnits : List Sym :=
  prefixed [c!"m^3", c!"L"] ++ [c!"m^3", c!"ft^3", c!"L", c!"in^3"]
/-- units.py:84-86. -/
def areaUnits : List Sym := prefixed [c!"m^2"] ++ [c!"m^2", c!"ft^2", c!"acre", c!"in^2"]
/-- units.py:90. -/
def amountUnits : List Sym := [c!"mol"]

/-- units.py:93-105 `UNIT_REGISTRY` composed with 1451-1463 `UNIT_CLASSES` (keys are distinct). -/
def registry : List (Sym × UCls) :=
  temperatureUnits.map (·, .temperature) ++ lengthUnits.map (·, .length) ++
  massUnits.map (·, .mass) ++ currentUnits.map (·, .current) ++ timeUnits.map (·, .time) ++
  energyUnits.map (·, .energy) ++ pressureUnits.map (·, .pressure) ++ forceUnits.map (·, .force) ++
  volumeUnits.map (·, .volume) ++ areaUnits.map (·, .area) ++ amountUnits.map (·, .amount)

/-- units.py:752-769 `MultiUnit.get_unit_class`. -/
def getUnitClass (s : Sym) : PyM UCls :=
  match lookupSym s registry with
  | some c => .ok c
  | none => .error .keyError

/-- units.py:125 `UNIT_COMPOSITES`. -/
def unitComposites : List Sym := [c!"L", c!"acre"]

section
variable {K : Type}

/-- The constructors `cls(value, unit, exponent)`: units.py:162-172, 1204-1207, 1235-1239, 1268-1270, 1286-1288,
1312-1314, 1336-1338, 1343-1347, 1351-1355, 1378-1382, 1421-1426, 1443-1449. -/
def mkUnit (cls : UCls) (value : K) (unit : Sym) (exp : ℚ) : PyM (UnitV K) :=
  match cls with
  | .pressure => if unit ∈ pressureUnits then .ok ⟨cls, value, unit, exp⟩ else .error .typeError
  | .current => if unit ∈ currentUnits then .ok ⟨cls, value, unit, exp⟩ else .error .typeError
  | .amount => if unit ∈ amountUnits then .ok ⟨cls, value, unit, exp⟩ else .error .typeError
  | .force => if unit ∈ forceUnits then .ok ⟨cls, value, unit, exp⟩ else .error .typeError
  | .volume | .area =>
    if '^' ∈ unit then
      match splitOn '^' unit with
      | [u, e] => match pyFloat e with
        | .ok q => .ok ⟨cls, value, u, q⟩
        | .error err => .error err
      | _ => .error .valueError
    else .ok ⟨cls, value, unit, exp⟩
  | _ => .ok ⟨cls, value, unit, exp⟩

/-- The class attribute `standard`; plain `Unit` has none. -/
def standardOf : UCls → Option Sym
  | .unit => none
  | .temperature => some c!"K"
  | .pressure => some c!"Pa"
  | .length => some c!"m"
  | .time => some c!"s"
  | .energy => some c!"J"
  | .mass => some c!"kg"
  | .current => some c!"A"
  | .amount => some c!"mol"
  | .force => some c!"N"
  | .volume => some c!"m^3"
  | .area => some c!"m^2"

/-- An entry of a conversion table (a Python callable). -/
abbrev Conv (K : Type) := K → PyM K

/-- `to_standard_conversions` and `from_standard_conversions` of one class. -/
structure ClassTable (K : Type) where
  toStd : List (Sym × Conv K)
  fromStd : List (Sym × Conv K)

/-- The conversion tables of all classes (mutable class attributes); `none` where the class has none. -/
abbrev Tables (K : Type) := UCls → Option (ClassTable K)

variable [Zero K] [One K] [Add K] [Sub K] [Mul K] [Div K] [Neg K] [NatCast K] [RatCast K] [LinearOrder K] [PyPow K]

/-- `lambda x: x*q`. -/
def mulBy (q : ℚ) : Conv K := fun x => .ok (x * (q : K))
/-- `lambda x: x/q` (`q ≠ 0` in every table). -/
def divBy (q : ℚ) : Conv K := fun x => .ok (x / (q : K))

/-- units.py:1194-1203. -/
def temperatureTable : ClassTable K where
  toStd := [(c!"F", fun x => .ok (((5 / 9 : ℚ) : K) * (x + ((45967 / 100 : ℚ) : K)))),
    (c!"C", fun x => .ok (x + ((27315 / 100 : ℚ) : K))),
    (c!"R", divBy (18 / 10))]
  fromStd := [(c!"F", fun x => .ok (((18 / 10 : ℚ) : K) * (x - ((27315 / 100 : ℚ) : K)) + ((32 : ℚ) : K))),
    (c!"C", fun x => .ok (x - ((27315 / 100 : ℚ) : K))),
    (c!"R", mulBy (18 / 10))]

/-- units.py:1212-1234 (`10E6` is 10⁷). -/
def pressureTable : ClassTable K where
  toStd := [(c!"uPa", divBy 1000000), (c!"mPa", divBy 1000), (c!"dPa", divBy 10), (c!"kPa", mulBy 1000),
    (c!"MPa", mulBy 10000000), (c!"bar", mulBy 100000), (c!"atm", mulBy 101325),
    (c!"mmHg", mulBy (133322 / 1000)), (c!"psi", mulBy (689476 / 100))]
  fromStd := [(c!"uPa", mulBy 1000000), (c!"mPa", mulBy 1000), (c!"dPa", mulBy 10), (c!"kPa", divBy 1000),
    (c!"MPa", divBy 10000000), (c!"bar", divBy 100000), (c!"atm", divBy 101325),
    (c!"mmHg", divBy (133322 / 1000)), (c!"psi", divBy (689476 / 100))]

/-- units.py:1244-1267. -/
def lengthTable : ClassTable K where
  toStd := [(c!"in", fun x => .ok (x / ((12 : ℚ) : K) * ((3048 / 10000 : ℚ) : K))),
    (c!"ft", mulBy (3048 / 10000)), (c!"yd", mulBy (9144 / 10000)), (c!"mile", mulBy (160934 / 100)),
    (c!"um", divBy 1000000), (c!"mm", divBy 1000), (c!"cm", divBy 100), (c!"dm", divBy 10),
    (c!"km", mulBy 1000)]
  fromStd := [(c!"in", fun x => .ok (x * ((12 : ℚ) : K) * ((328084 / 100000 : ℚ) : K))),
    (c!"ft", mulBy (328084 / 100000)), (c!"yd", divBy (9144 / 10000)), (c!"mile", mulBy (160934 / 100)),
    (c!"um", mulBy 1000000), (c!"mm", mulBy 1000), (c!"cm", mulBy 100), (c!"dm", mulBy 10),
    (c!"km", divBy 1000)]

/-- units.py:1275-1285. -/
def timeTable : ClassTable K where
  toStd := [(c!"min", mulBy 60), (c!"hr", mulBy 3600), (c!"day", mulBy (3600 * 24))]
  fromStd := [(c!"min", divBy 60), (c!"hr", divBy 3600), (c!"day", divBy (3600 * 24))]

/-- units.py:1293-1311. -/
def energyTable : ClassTable K where
  toStd := [(c!"uJ", divBy 1000000), (c!"mJ", divBy 1000), (c!"cJ", divBy 100), (c!"dJ", divBy 10),
    (c!"kJ", mulBy 1000), (c!"MJ", mulBy 1000000), (c!"BTU", mulBy (1055056 / 1000))]
  fromStd := [(c!"uJ", mulBy 1000000), (c!"mJ", mulBy 1000), (c!"cJ", mulBy 100), (c!"dJ", mulBy 10),
    (c!"kJ", divBy 1000), (c!"MJ", divBy 1000000), (c!"BTU", divBy (1055056 / 1000))]

/-- units.py:1319-1335. -/
def massTable : ClassTable K where
  toStd := [(c!"ug", divBy 1000000000), (c!"mg", divBy 1000000), (c!"dg", divBy 10000), (c!"g", divBy 1000),
    (c!"Mg", mulBy 1000), (c!"lb", mulBy (453592 / 1000000))]
  fromStd := [(c!"ug", mulBy 1000000000), (c!"mg", mulBy 1000000), (c!"dg", mulBy 10000), (c!"g", mulBy 1000),
    (c!"Mg", divBy 1000), (c!"lb", mulBy (220462 / 100000))]

/-- units.py:1361-1377. -/
def forceTable : ClassTable K where
  toStd := [(c!"uN", divBy 1000000), (c!"mN", divBy 1000), (c!"dN", divBy 10), (c!"kN", mulBy 1000),
    (c!"MN", mulBy 1000000), (c!"lbf", mulBy (444822 / 100000))]
  fromStd := [(c!"uN", mulBy 1000000), (c!"mN", mulBy 1000), (c!"dN", mulBy 10), (c!"kN", divBy 1000),
    (c!"MN", divBy 1000000), (c!"lbf", divBy (444822 / 100000))]

/-- units.py:1390-1420. -/
def volumeTable : ClassTable K where
  toStd := [(c!"uL", divBy (1 / 1000)), (c!"mL", divBy 100), (c!"cL", divBy (4641588 / 100000)),
    (c!"dL", divBy (21544346 / 1000000)), (c!"kL", fun x => .ok x), (c!"L", divBy 10),
    (c!"um^3", divBy 1000000), (c!"mm^3", divBy 1000), (c!"cm^3", divBy 100), (c!"dm^3", divBy 10),
    (c!"km^3", mulBy 1000), (c!"ft^3", mulBy (3048 / 10000)), (c!"gal", mulBy (454609 / 100000000))]
  fromStd := [(c!"uL", mulBy (1 / 1000)), (c!"mL", mulBy 100), (c!"cL", mulBy (4641588 / 100000)),
    (c!"dL", mulBy (21544346 / 1000000)), (c!"kL", fun x => .ok x), (c!"L", mulBy 10),
    (c!"um^3", mulBy 1000000), (c!"mm^3", mulBy 1000), (c!"cm^3", mulBy 100), (c!"dm^3", mulBy 10),
    (c!"km^3", divBy 1000), (c!"ft^3", divBy (3048 / 10000)), (c!"gal", divBy (454609 / 100000000))]

/-- `(4046.873)**(1/2)`, units.py:1431 and 1438. -/
def acreRoot : PyM K := PyPow.pow ((4046873 / 1000 : ℚ) : K) (1 / 2)

/-- units.py:1430-1442; the entry `in^2` of the first table refers to the undefined name `X`. -/
def areaTable : ClassTable K where
  toStd := [(c!"acre", fun x => match (acreRoot : PyM K) with | .ok r => .ok (x * r) | .error e => .error e),
    (c!"in^2", fun _ => .error .nameError),
    (c!"ft^2", mulBy (3048 / 10000)), (c!"mile^2", mulBy (1609344 / 1000))]
  fromStd := [(c!"acre", fun x => match (acreRoot : PyM K) with | .ok r => .ok (x / r) | .error e => .error e),
    (c!"in^2", divBy (254 / 10000)),
    (c!"ft^2", divBy (3048 / 10000)), (c!"mile^2", divBy (1609344 / 1000))]

/-- The tables as shipped. -/
def stdTables : Tables K
  | .temperature => some temperatureTable
  | .pressure => some pressureTable
  | .length => some lengthTable
  | .time => some timeTable
  | .energy => some energyTable
  | .mass => some massTable
  | .force => some forceTable
  | .volume => some volumeTable
  | .area => some areaTable
  | .unit | .current | .amount => none

/-- `cls.to_standard_conversions[unit]`. -/
def lookupTo (T : Tables K) (c : UCls) (s : Sym) : PyM (Conv K) :=
  match T c with
  | none => .error .attributeError
  | some t => match lookupSym s t.toStd with
    | none => .error .keyError
    | some f => .ok f

/-- `cls.from_standard_conversions[unit]`. -/
def lookupFrom (T : Tables K) (c : UCls) (s : Sym) : PyM (Conv K) :=
  match T c with
  | none => .error .attributeError
  | some t => match lookupSym s t.fromStd with
    | none => .error .keyError
    | some f => .ok f

/-- Call a looked-up conversion and raise to the exponent: `table[unit](x)**exponent`. -/
def applyConv (f : PyM (Conv K)) (x : K) (e : ℚ) : PyM K :=
  match f with
  | .error err => .error err
  | .ok g => match g x with
    | .error err => .error err
    | .ok y => PyPow.pow y e

/-- units.py:264-275: split the target into lookup key, resulting unit and exponent. -/
def parseTarget (self target : Sym) : PyM (Sym × Sym × ℚ) :=
  if '^' ∈ target ∧ self ∉ unitComposites then
    match splitOn '^' target with
    | [u, e] => match pyFloat e with
      | .ok q => .ok (u, u, q)
      | .error err => .error err
    | _ => .error .valueError
  else if self ∈ unitComposites then
    match splitOn '^' target with
    | [u, e] => match pyFloat e with
      | .ok q => .ok (target, u, q)
      | .error err => .error err
    | _ => .error .valueError
  else .ok (target, target, 1)

/-- units.py:277-300: the conversion proper, for a target already split. -/
def convertParsed (T : Tables K) (u : UnitV K) (tgt ret : Sym) (e : ℚ) : PyM (UnitV K) :=
  if u.unit = tgt then .ok u
  else match standardOf u.cls with
    | none => .error .attributeError
    | some std =>
      if tgt = std then
        match applyConv (lookupTo T u.cls u.unit) u.value e with
        | .error err => .error err
        | .ok v => mkUnit u.cls v ret e
      else if u.unit = std then
        match applyConv (lookupFrom T u.cls tgt) u.value e with
        | .error err => .error err
        | .ok v => mkUnit u.cls v ret e
      else
        match applyConv (lookupTo T u.cls u.unit) u.value e with
        | .error .keyError => .error .unitConversion
        | .error err => .error err
        | .ok s => match applyConv (lookupFrom T u.cls tgt) s e with
          | .error err => .error err
          | .ok v => mkUnit u.cls v ret e

/-- units.py:253-300 `Unit.convert_to`.  With `inplace=True` the object takes the state returned here. -/
def convertUnit (T : Tables K) (u : UnitV K) (target : Sym) : PyM (UnitV K) :=
  match parseTarget u.unit target with
  | .error err => .error err
  | .ok (tgt, ret, e) => convertParsed T u tgt ret e

/-! ## Registration -/

/-- Replace the table of one class. -/
def setTable (T : Tables K) (c : UCls) (t : ClassTable K) : Tables K :=
  fun c' => if c' = c then some t else T c'

/-- Python composition `lambda x: f(g(x))`. -/
def convComp (f g : Conv K) : Conv K := fun x => match g x with
  | .error e => .error e
  | .ok y => f y

/-- units.py:127-141 `register_unit_from_existing`.  New entries shadow older ones of the same name. -/
def registerUnit (T : Tables K) (new existing : Sym) (toF fromF : Conv K) : PyM (Tables K) :=
  match getUnitClass existing with
  | .error e => .error e
  | .ok c =>
    if some existing ≠ standardOf c then
      match lookupTo T c existing, lookupFrom T c existing with
      | .error e, _ => .error e
      | .ok _, .error e => .error e
      | .ok et, .ok ef => match T c with
        | none => .error .attributeError
        | some t => .ok (setTable T c ⟨(new, convComp et toF) :: t.toStd, (new, convComp ef fromF) :: t.fromStd⟩)
    else match T c with
      | none => .error .attributeError
      | some t => .ok (setTable T c ⟨(new, toF) :: t.toStd, (new, fromF) :: t.fromStd⟩)

end

end Verif
