import Verif.Units.Basic
import Mathlib.Data.Int.Log
import Mathlib.Algebra.Order.Floor.Ring
import Mathlib.Data.Rat.Floor

/-!
# Rounding of rational numbers to double precision

The result of an operation on Python floats is the exact result rounded to 53 significant bits, to nearest, ties to even.
Overflow and underflow are not modelled.  Nothing here refers to the algorithms of the library.
-/

namespace Verif

/-- The nearest integer, the even one of two. -/
def halfEven (x : ℚ) : ℤ :=
  if x - ⌊x⌋ < 1 / 2 then ⌊x⌋
  else if 1 / 2 < x - ⌊x⌋ then ⌊x⌋ + 1
  else if ⌊x⌋ % 2 = 0 then ⌊x⌋ else ⌊x⌋ + 1

/-- The distance of the numbers with 53 bits near `x`. -/
def ulp (x : ℚ) : ℚ := (2 : ℚ) ^ (Int.log 2 |x| - 52)

/-- Rounding to 53 significant bits. -/
def toDouble (x : ℚ) : ℚ := if x = 0 then 0 else halfEven (x / ulp x) * ulp x

/-- `x` is a whole number of `2^k`-ths. -/
def OnGrid (k : ℕ) (x : ℚ) : Prop := ∃ z : ℤ, x * 2 ^ k = z

theorem onGrid_iff (k : ℕ) (x : ℚ) : OnGrid k x ↔ (x * 2 ^ k).den = 1 :=
  ⟨fun ⟨z, hz⟩ => by rw [hz]; rfl, fun h => ⟨(x * 2 ^ k).num, (Rat.den_eq_one_iff _).1 h ▸ rfl⟩⟩

instance (k : ℕ) (x : ℚ) : Decidable (OnGrid k x) := decidable_of_iff _ (onGrid_iff k x).symm

/-- A rounding that leaves the `2^k`-ths up to `M` alone. -/
def Fixes (r : ℚ → ℚ) (k : ℕ) (M : ℚ) : Prop := ∀ x, OnGrid k x → |x| ≤ M → r x = x

/-- Sum of the absolute exponents. -/
def absTotal (l : UList) : ℚ := (l.map fun u => |u.exp|).sum

/-- Not the ampere, coulomb or volt, with or without a prefix. -/
def NonElectric (s : Sym) : Prop :=
  s ∉ [c!"A", c!"C", c!"V"] ∧ s.tail ∉ [c!"A", c!"C", c!"V"]

instance (s : Sym) : Decidable (NonElectric s) := by unfold NonElectric; infer_instance

/-- Units that contain a mass or a force, with or without a prefix. -/
def Heavy (s : Sym) : Prop :=
  s ∈ [c!"kg", c!"g", c!"lbf", c!"Pa", c!"J", c!"W", c!"psi", c!"cP"] ∨
    s.tail ∈ [c!"kg", c!"g", c!"lbf", c!"Pa", c!"J", c!"W", c!"psi", c!"cP"]

instance (s : Sym) : Decidable (Heavy s) := by unfold Heavy; infer_instance

/-- Sum of the absolute exponents of these units. -/
def heavyTotal (l : UList) : ℚ := (l.map fun u => if Heavy u.unit then |u.exp| else 0).sum

/-- Exponents that are whole numbers of `2^k`-ths, with absolute values adding up to at most `S`, those of units with a
mass or a force to at most `μ`; no electrical units. -/
structure Tame (k : ℕ) (S μ : ℚ) (l : UList) : Prop where
  grid : ∀ u ∈ l, OnGrid k u.exp
  total : absTotal l ≤ S
  heavy : heavyTotal l ≤ μ
  units : ∀ u ∈ l, NonElectric u.unit

instance (k : ℕ) (S μ : ℚ) (l : UList) : Decidable (Tame k S μ l) :=
  decidable_of_iff ((∀ u ∈ l, OnGrid k u.exp) ∧ absTotal l ≤ S ∧ heavyTotal l ≤ μ ∧ ∀ u ∈ l, NonElectric u.unit)
    ⟨fun h => ⟨h.1, h.2.1, h.2.2.1, h.2.2.2⟩, fun h => ⟨h.1, h.2, h.3, h.4⟩⟩

end Verif
