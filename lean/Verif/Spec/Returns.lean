import Verif.Spec.Trends
import Verif.Props.Float

/-!
# What it means that a formula can be called with SI quantities

Nothing here depends on how a formula is computed.
-/

namespace Verif

/-- The SI units the library can take apart, and the base units. -/
def siSymbols : List Sym := [c!"m", c!"kg", c!"s", c!"K", c!"A", c!"mol", c!"J", c!"W", c!"Pa", c!"C", c!"V"]

/-- How an argument is given: a number, a simple quantity of a class in a unit raised to a power, or a compound quantity of
a dimension in SI units, arranged in any way. -/
inductive SIKind
  | number
  | simple (c : UCls) (s : Sym) (e : ℚ)
  | compound (d : Dim)
  deriving DecidableEq

def SIKind.Is : SIKind → Val ℝ → Prop
  | .number, v => ∃ x, v = .num x
  | .simple c s e, v => ∃ x, v = .unit ⟨c, x, s, e⟩ ∧ (⟨c, x, s, e⟩ : UnitV ℝ).Constructed
  | .compound d, v => ∃ m, v = .multi m ∧ (∀ u ∈ m.top ++ m.bot, u.unit ∈ siSymbols ∧ 0 ≤ u.exp) ∧ (Val.multi m).dim = d

/-- Two compound quantities of one class written in the same units in the same order. -/
def Val.Alike : Val ℝ → Val ℝ → Prop
  | .multi m, .multi n => m.cls = n.cls ∧ m.top = n.top ∧ m.bot = n.bot
  | _, _ => False

/-- A call: for every argument its kind, and its sign if one is assumed (`none` where the formula has no such argument);
pairs `(i, j)` with argument `i` above argument `j`; pairs of arguments written alike; the dimension of the result. -/
structure SICall where
  name : Sym
  args : List (Option (SIKind × Option Sgn))
  above : List (ℕ × ℕ) := []
  alike : List (ℕ × ℕ) := []
  result : Dim
  deriving DecidableEq

def SICall.arg (t : SICall) (i : ℕ) : Option (SIKind × Option Sgn) := t.args.getD i none

/-- The arguments are as described. -/
structure SICall.Admits (t : SICall) (a : ℕ → Val ℝ) : Prop where
  kind : ∀ i k, t.arg i = some k → k.1.Is (a i)
  sign : ∀ i k s, t.arg i = some k → k.2 = some s → s.Of (a i).amount
  above : ∀ p ∈ t.above, (a p.2).amount < (a p.1).amount
  alike : ∀ p ∈ t.alike, (a p.1).Alike (a p.2)

/-- Called like that the formula returns a quantity in SI units of the dimension, a number if there is none. -/
def SICall.Returns (t : SICall) (f : (ℕ → Val ℝ) → PyM (Val ℝ)) : Prop :=
  ∀ a, t.Admits a → ∃ r, f a = .ok r ∧ r.dim = t.result ∧ r.magn (fun s => (siSize s : ℝ)) = r.amount ∧
    (t.result = 0 → ∃ x, r = .num x)

end Verif
