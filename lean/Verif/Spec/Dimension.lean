import Verif.Spec.Quantity
import Mathlib.Algebra.Module.Prod

/-! # Physical dimension of unit symbols -/

namespace Verif

/-- Exponents of length, mass, time, temperature, current, amount. -/
abbrev Dim := ℚ × ℚ × ℚ × ℚ × ℚ × ℚ

/-- Dimensions of the units by name. `C` in a compound unit is the coulomb. -/
def dimTable : List (Sym × Dim) :=
  ([c!"m", c!"um", c!"ft", c!"in", c!"yd", c!"mile"].map fun s => (s, (1, 0, 0, 0, 0, 0))) ++
  ([c!"kg", c!"g", c!"ug", c!"lb"].map fun s => (s, (0, 1, 0, 0, 0, 0))) ++
  ([c!"s", c!"min", c!"hr", c!"day"].map fun s => (s, (0, 0, 1, 0, 0, 0))) ++
  ([c!"K", c!"R", c!"F"].map fun s => (s, (0, 0, 0, 1, 0, 0))) ++
  [(c!"A", (0, 0, 0, 0, 1, 0)), (c!"mol", (0, 0, 0, 0, 0, 1))] ++
  ([c!"N", c!"uN", c!"lbf"].map fun s => (s, (1, 1, -2, 0, 0, 0))) ++
  ([c!"J", c!"uJ", c!"BTU"].map fun s => (s, (2, 1, -2, 0, 0, 0))) ++
  ([c!"Pa", c!"uPa", c!"psi", c!"atm", c!"bar", c!"mmHg"].map fun s => (s, (-1, 1, -2, 0, 0, 0))) ++
  [(c!"W", (2, 1, -3, 0, 0, 0)), (c!"cP", (-1, 1, -1, 0, 0, 0)), (c!"C", (0, 0, 1, 0, 1, 0)),
   (c!"V", (2, 1, -3, 0, -1, 0)), (c!"L", (3, 0, 0, 0, 0, 0)), (c!"uL", (3, 0, 0, 0, 0, 0)),
   (c!"acre", (2, 0, 0, 0, 0, 0))]

/-- Dimension of a symbol: from the table, otherwise a prefix letter is dropped; unknown symbols are dimensionless. -/
def dimOf : Sym → Dim
  | [] => 0
  | c :: s => match lookupSym (c :: s) dimTable with
    | some d => d
    | none => if c ∈ siPrefixes.map (·.1) then dimOf s else 0

/-- Dimension of a compound unit. -/
def dimOfUnit (top bot : UList) : Dim :=
  (top.map fun u => u.exp • dimOf u.unit).sum - (bot.map fun u => u.exp • dimOf u.unit).sum

end Verif
