import Verif.Units.Basic
import Mathlib.Analysis.SpecialFunctions.Pow.Real

/-!
# What unit lists mean

Written without reference to the algorithms of the model.  A *size assignment* gives every unit symbol a
positive real size (how much of some fixed reference one such unit is); a unit list denotes the product of the
sizes raised to the exponents.  A *weight assignment* into any ℚ-vector space is the additive analogue and covers
logarithms of sizes, dimensions, and formal exponents at once.
-/

namespace Verif

/-- Weighted exponent sum of a unit list. -/
def wsum {V : Type*} [AddCommGroup V] [Module ℚ V] (w : Sym → V) (l : UList) : V :=
  (l.map fun u => u.exp • w u.unit).sum

/-- Numerator minus denominator. -/
def net {V : Type*} [AddCommGroup V] [Module ℚ V] (w : Sym → V) (top bot : UList) : V :=
  wsum w top - wsum w bot

/-- The definitions of the derived units, additively. `C` is the coulomb. -/
structure DerivedLaws {V : Type*} [AddCommGroup V] [Module ℚ V] (w : Sym → V) : Prop where
  pascal : w c!"Pa" = w c!"kg" - w c!"m" - (2 : ℚ) • w c!"s"
  joule : w c!"J" = w c!"kg" + (2 : ℚ) • w c!"m" - (2 : ℚ) • w c!"s"
  watt : w c!"W" = w c!"J" - w c!"s"
  psi : w c!"psi" = w c!"lbf" - (2 : ℚ) • w c!"in"
  centipoise : w c!"cP" = w c!"g" - w c!"m" - w c!"s"
  coulomb : w c!"C" = w c!"A" + w c!"s"
  volt : w c!"V" = w c!"kg" + (2 : ℚ) • w c!"m" - (3 : ℚ) • w c!"s" - w c!"A"

/-- Size of a unit list. -/
noncomputable def lsize (ρ : Sym → ℝ) (l : UList) : ℝ :=
  (l.map fun u => ρ u.unit ^ (u.exp : ℝ)).prod

/-- Physical magnitude of the quantity `v top/bot`. -/
noncomputable def mag (ρ : Sym → ℝ) (v : ℝ) (top bot : UList) : ℝ :=
  v * (lsize ρ top / lsize ρ bot)

/-- SI prefixes. -/
def siPrefixes : List (Char × ℚ) :=
  [('m', 1 / 1000), ('c', 1 / 100), ('d', 1 / 10), ('k', 1000), ('M', 1000000)]

/-- Unit symbols that take SI prefixes. -/
def prefixStems : List Sym :=
  [c!"m", c!"g", c!"s", c!"A", c!"K", c!"mol", c!"J", c!"Pa", c!"N", c!"W", c!"V", c!"C", c!"L", c!"bar"]

/-- A coherent assignment of sizes: all positive, derived units are what their definition says, and
prefixed units are multiples of the unprefixed ones. -/
structure Coherent (ρ : Sym → ℝ) : Prop where
  pos : ∀ s, 0 < ρ s
  pascal : ρ c!"Pa" = ρ c!"kg" / (ρ c!"m" * ρ c!"s" ^ 2)
  joule : ρ c!"J" = ρ c!"kg" * ρ c!"m" ^ 2 / ρ c!"s" ^ 2
  watt : ρ c!"W" = ρ c!"J" / ρ c!"s"
  psi : ρ c!"psi" = ρ c!"lbf" / ρ c!"in" ^ 2
  centipoise : ρ c!"cP" = ρ c!"g" / (ρ c!"m" * ρ c!"s")
  coulomb : ρ c!"C" = ρ c!"A" * ρ c!"s"
  volt : ρ c!"V" = ρ c!"kg" * ρ c!"m" ^ 2 / (ρ c!"s" ^ 3 * ρ c!"A")
  si : ∀ p ∈ siPrefixes, ∀ s ∈ prefixStems, ρ (p.1 :: s) = (p.2 : ℝ) * ρ s

/-- A symbol the prefix rules treat correctly: it is `kg`, or an SI prefix on a stem that takes prefixes, or it has
no prefix at all (one letter, or not starting with a prefix letter, or one of `min`, `cP`, `mol`). Decidable. -/
def WellPrefixed (s : Sym) : Prop :=
  s = c!"kg" ∨ (∃ p ∈ siPrefixes, ∃ st ∈ prefixStems, s = p.1 :: st) ∨
  s = c!"min" ∨ s = c!"cP" ∨ s = c!"mol" ∨
  (∃ c, s = [c]) ∨ (∃ c cs, s = c :: cs ∧ ∀ p ∈ siPrefixes, p.1 ≠ c)

/-- All symbols of a unit list are well prefixed. -/
def WellPrefixedList (l : UList) : Prop := ∀ u ∈ l, WellPrefixed u.unit

/-- A symbol without prefix (`kg` counts as unprefixed). -/
def Unprefixed (s : Sym) : Prop :=
  s = c!"kg" ∨ s = c!"min" ∨ s = c!"cP" ∨ s = c!"mol" ∨
  (∃ c, s = [c]) ∨ (∃ c cs, s = c :: cs ∧ ∀ p ∈ siPrefixes, p.1 ≠ c)

/-- Value of the SI prefix of a symbol, 1 when there is none. -/
def prefixOf (s : Sym) : ℚ :=
  match s with
  | [] => 1
  | c :: st =>
    if s ≠ c!"kg" ∧ st ∈ prefixStems then
      match siPrefixes.find? (fun p => p.1 = c) with
      | some p => p.2
      | none => 1
    else 1

/-- Product of the prefixes of a unit list. -/
noncomputable def prefixProd (l : UList) : ℝ := (l.map fun u => (prefixOf u.unit : ℝ) ^ (u.exp : ℝ)).prod

instance (s : Sym) : Decidable (∃ c, s = [c]) :=
  match s with
  | [c] => .isTrue ⟨c, rfl⟩
  | [] => .isFalse (by simp)
  | _ :: _ :: _ => .isFalse (by simp)

instance (s : Sym) : Decidable (∃ c cs, s = c :: cs ∧ ∀ p ∈ siPrefixes, p.1 ≠ c) :=
  match s with
  | [] => .isFalse (by simp)
  | c :: cs => decidable_of_iff (∀ p ∈ siPrefixes, p.1 ≠ c) (by simp)

instance (s : Sym) : Decidable (WellPrefixed s) := by unfold WellPrefixed; infer_instance
instance (s : Sym) : Decidable (Unprefixed s) := by unfold Unprefixed; infer_instance
instance (l : UList) : Decidable (WellPrefixedList l) := by unfold WellPrefixedList; infer_instance

def UnprefixedList (l : UList) : Prop := ∀ u ∈ l, Unprefixed u.unit

instance (l : UList) : Decidable (UnprefixedList l) := by unfold UnprefixedList; infer_instance

/-- The names that have a definition in terms of other units. -/
def derivedNames : List Sym := [c!"Pa", c!"J", c!"W", c!"psi", c!"cP", c!"C", c!"V"]

/-- Total exponent of a symbol in a list. -/
def symExp (s : Sym) (l : UList) : ℚ := (l.map fun u => if u.unit = s then u.exp else 0).sum

/-- Number of entries of a symbol with nonzero exponent. -/
def occurrences (s : Sym) (l : UList) : ℕ := l.countP fun u => decide (u.unit = s ∧ u.exp ≠ 0)

end Verif
