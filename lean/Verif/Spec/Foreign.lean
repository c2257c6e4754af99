import Verif.Spec.Faults

/-!
# What it means that a formula can be called with quantities in units of the user's choice

Six units for length, mass, time, temperature, energy and amount, such as `ft`, `lb`, `hr`, `F`, `BTU` and `lbmol`.  Nothing
here depends on how a formula is computed.
-/

namespace Verif

/-- A unit without prefix that is no derived unit and starts none of the definitions of units.py:109-123. -/
def Untouched (s : Sym) : Prop := Unprefixed s ∧ s ∉ derivedNames ∧ s ∉ [c!"kg", c!"lbf", c!"g", c!"A"]

/-- What a unit of the set measures. -/
inductive Slot
  | length
  | mass
  | time
  | temperature
  | energy
  | amount
  deriving DecidableEq

def Slot.all : List Slot := [.length, .mass, .time, .temperature, .energy, .amount]

/-- The exponents of a quantity, in the order of `Slot.all`; the energy is measured in its own unit. -/
def Slot.dim : Slot → Dim
  | .length => (1, 0, 0, 0, 0, 0)
  | .mass => (0, 1, 0, 0, 0, 0)
  | .time => (0, 0, 1, 0, 0, 0)
  | .temperature => (0, 0, 0, 1, 0, 0)
  | .energy => (0, 0, 0, 0, 1, 0)
  | .amount => (0, 0, 0, 0, 0, 1)

/-- A set of units. -/
structure UnitSet where
  sym : Slot → Sym
  foreign : ∀ i, Untouched (sym i)
  inj : ∀ i j, sym i = sym j → i = j

/-- A symbol of the set. -/
def UnitSet.Mem (S : UnitSet) (s : Sym) : Prop := ∃ i, s = S.sym i

/-- The dimension of a symbol of the set. -/
def UnitSet.dim (S : UnitSet) (s : Sym) : Dim := ((Slot.all.filter fun i => s = S.sym i).map Slot.dim).sum

/-- The quantity is written in units of the set and has the dimension; it is a number exactly if the dimension is zero. -/
def UnitSet.Gives (S : UnitSet) (d : Dim) : Val ℝ → Prop
  | .num _ => d = 0
  | .unit u => S.Mem u.unit ∧ u.exp • S.dim u.unit = d ∧ d ≠ 0
  | .multi m => (∀ u ∈ m.top ++ m.bot, S.Mem u.unit) ∧ net S.dim m.top m.bot = d ∧ d ≠ 0
  | _ => False

/-- How an argument is given: a number, a simple quantity of a class in a power of a unit of the set, or a compound quantity of
a dimension in units of the set, arranged in any way. -/
inductive FKind
  | number
  | simple (c : UCls) (i : Slot) (e : ℚ)
  | compound (d : Dim)
  deriving DecidableEq

def FKind.Is (S : UnitSet) : FKind → Val ℝ → Prop
  | .number, v => ∃ x, v = .num x
  | .simple c i e, v => ∃ x, v = .unit ⟨c, x, S.sym i, e⟩ ∧ (⟨c, x, S.sym i, e⟩ : UnitV ℝ).Constructed
  | .compound d, v => ∃ m, v = .multi m ∧ (∀ u ∈ m.top ++ m.bot, S.Mem u.unit ∧ 0 ≤ u.exp) ∧ net S.dim m.top m.bot = d

/-- A call, as in `SICall`. -/
structure FCall where
  name : Sym
  args : List (Option (FKind × Option Sgn))
  above : List (ℕ × ℕ) := []
  alike : List (ℕ × ℕ) := []
  result : Dim
  deriving DecidableEq

def FCall.arg (t : FCall) (i : ℕ) : Option (FKind × Option Sgn) := t.args.getD i none

/-- The arguments are of the kinds of the call; nothing is said of their numbers. -/
structure FCall.Fits (t : FCall) (S : UnitSet) (a : ℕ → Val ℝ) : Prop where
  kind : ∀ i k, t.arg i = some k → k.1.Is S (a i)
  alike : ∀ p ∈ t.alike, (a p.1).Alike (a p.2)

/-- The arguments are as described. -/
structure FCall.Admits (t : FCall) (S : UnitSet) (a : ℕ → Val ℝ) : Prop extends t.Fits S a where
  sign : ∀ i k s, t.arg i = some k → k.2 = some s → s.Of (a i).amount
  above : ∀ p ∈ t.above, (a p.2).amount < (a p.1).amount

end Verif
