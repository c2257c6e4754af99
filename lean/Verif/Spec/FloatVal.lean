import Verif.Units.Float
import Verif.Spec.Units

/-!
# What it means that a floating point computation is accurate

The floating point run and the exact run end in the same exception, or both return, with the same classes, units and
exponents and with values of the stated relative precision.
-/

namespace Verif

/-- Both runs raise the same exception or both return related results. -/
def SameOutcome {α β : Type} (R : α → β → Prop) : PyM α → PyM β → Prop
  | .ok a, .ok b => R a b
  | .error e, .error e' => e = e'
  | _, _ => False

variable {A : FloatArith}

/-- Same class, unit and exponent; the value has relative precision `k`. -/
def UnitV.Near (k : ℝ) (x : UnitV (Fl A)) (y : UnitV ℝ) : Prop :=
  x.cls = y.cls ∧ x.unit = y.unit ∧ x.exp = y.exp ∧ Close k x.value.val y.value

/-- Same class and units; the value has relative precision `k`. -/
def MultiV.Near (k : ℝ) (x : MultiV (Fl A)) (y : MultiV ℝ) : Prop :=
  x.cls = y.cls ∧ x.top = y.top ∧ x.bot = y.bot ∧ Close k x.value.val y.value

/-- The same kind of object, with the same units. -/
def Val.Near (k : ℝ) : Val (Fl A) → Val ℝ → Prop
  | .num x, .num y => Close k x.val y
  | .unit x, .unit y => x.Near k y
  | .multi x, .multi y => x.Near k y
  | .none, .none => True
  | .other, .other => True
  | .bare, .bare => True
  | _, _ => False

/-- Rounding errors of the prefix factor of one entry: literal, reciprocal, power, product. -/
def BaseUnit.roundings (u : BaseUnit) : ℝ := if Unprefixed u.unit then 0 else 2 + 2 * |(u.exp : ℝ)|

/-- Rounding errors of the prefix factors of a list of units. -/
def roundings (l : UList) : ℝ := (l.map BaseUnit.roundings).sum

/-- Rounding errors of the prefix factors of a quantity. -/
def Val.roundings {K : Type} : Val K → ℝ
  | .unit u => BaseUnit.roundings ⟨u.unit, u.exp⟩
  | .multi m => Verif.roundings m.top + Verif.roundings m.bot
  | _ => 0

/-- Rounding errors of one entry of a conversion table: two literals and two operations. -/
def entryRoundings : ℝ := 4

/-- Precision after a simple conversion: nothing, one table or two, each raised to the exponent. -/
def convBound (ε k e : ℝ) : ℝ :=
  max k (max (|e| * (k + entryRoundings * ε) + ε) (|e| * (|e| * (k + entryRoundings * ε) + ε + entryRoundings * ε) + ε))

/-- The exponent in the standard unit of a class: `m^3` and `m^2`. -/
def stdExp : UCls → ℝ
  | .volume => 3
  | .area => 2
  | _ => 1

/-- Rounding errors of the factor to the standard unit. -/
def factorRoundings (c : UCls) (e : ℚ) : ℝ := max 4 (convBound 1 0 (if e = 1 then stdExp c else e))

/-- The same for the entry of a unit list: the class is looked up, its constructor may split the exponent off. -/
def entryFactorRoundings (x : BaseUnit) : ℝ :=
  match getUnitClass x.unit with
  | .ok c => match mkUnit c () x.unit x.exp with
    | .ok u => factorRoundings u.cls u.exp
    | .error _ => 0
  | .error _ => 0

/-- Rounding errors of the factors to the standard units of a numerator or denominator: the factors, a reciprocal and a
product for each. -/
def factorsRoundings (l : UList) : ℝ := (l.map fun x => entryFactorRoundings x + 2).sum

/-- The units after stripping prefixes and one round of deconstruction. -/
def startUnits (top bot : UList) : PyM (UList × UList) :=
  match mapPy stripUnit top with
  | .error e => .error e
  | .ok t => match mapPy stripUnit bot with
    | .error e => .error e
    | .ok b => deconstructOnce (t.map (·.2)) (b.map (·.2))

/-- Rounding errors of the factor of a compound unit to standard units. -/
def sideRoundings (top bot : UList) : ℝ :=
  roundings top + roundings bot + 1 + match startUnits top bot with
    | .ok (t, b) => factorsRoundings t + factorsRoundings b
    | .error _ => 0

/-- The same for a target string. -/
def targetRoundings (target : Sym) : ℝ :=
  match parseUnits target with
  | .ok (t, b) => sideRoundings t b
  | .error _ => 0

end Verif
