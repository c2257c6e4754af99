import Verif.Props.AnyPrefix
import Verif.Props.FloatCounts
import Verif.Props.Float

/-!
# What it means that a formula heeds a prefix

Nothing here depends on how a formula is computed.
-/

namespace Verif

/-- The factor the prefixes of a quantity stand for: 1/1000 for a length in `mm`, 1/100 for one in `cm`, and
1000000 for an area in `km^2`. -/
noncomputable def Val.scale : Val ℝ → ℝ
  | .unit u => (prefixOf u.unit : ℝ) ^ (u.exp : ℝ)
  | .multi m => prefixProd m.top / prefixProd m.bot
  | _ => 1

/-- The size a quantity would have if its prefixes were struck out. -/
noncomputable def Val.struck (ρ : Sym → ℝ) (v : Val ℝ) : ℝ := v.magn ρ / v.scale

/-- How an argument is given: a number, a simple quantity of a dimension in a unit raised to a power, or a compound
quantity of a dimension, in any known units. -/
inductive GivenAs
  | number
  | simple (d : Dim) (e : ℚ)
  | compound (d : Dim)
  deriving DecidableEq

def GivenAs.Is : GivenAs → Val ℝ → Prop
  | .number, v => ∃ x, v = .num x
  | .simple d e, v => (∃ u, v = .unit u ∧ u.exp = e) ∧ LooseVal v ∧ v.dim = d
  | .compound d, v => (∃ m, v = .multi m) ∧ LooseVal v ∧ v.dim = d

/-- The units may have prefixes and these are heeded, or they are ignored, or there must be none. -/
inductive Prefixing
  | heeded
  | ignored
  | absent
  deriving DecidableEq

/-- What a formula does with the prefixes of its arguments: for every argument how it is given and what becomes of its
prefixes (`none` where the formula has no such argument); and the power of the factor of each argument by which the
result is off besides. -/
structure PrefixUse where
  name : Sym
  args : List (Option (GivenAs × Prefixing))
  off : List ℚ := []
  deriving DecidableEq

/-- A quantity is written in the expression. -/
def Code.hasConst : Code → Bool
  | .const _ _ _ => true
  | .mul x y | .div x y | .add x y | .sub x y => x.hasConst || y.hasConst
  | .neg x | .pow x _ | .fn _ x | .conv x _ => x.hasConst
  | _ => false

namespace PrefixUse

def arg (t : PrefixUse) (i : ℕ) : Option (GivenAs × Prefixing) := t.args.getD i none

/-- The arguments are as described. -/
def Admits (t : PrefixUse) (a : ℕ → Val ℝ) : Prop :=
  ∀ i k, t.arg i = some k → k.1.Is (a i) ∧ (k.2 = .absent → PlainVal (a i))

/-- The size the formula takes argument `i` to have. -/
noncomputable def taken (t : PrefixUse) (ρ : Sym → ℝ) (a : ℕ → Val ℝ) (i : ℕ) : ℝ :=
  match t.arg i with
  | some (_, .ignored) => (a i).struck ρ
  | _ => (a i).magn ρ

/-- The product of the factors of the arguments raised to given powers. -/
noncomputable def offBy (a : ℕ → Val ℝ) : List ℚ → ℝ
  | [] => 1
  | q :: l => (a 0).scale ^ (q : ℝ) * offBy (fun i => a (i + 1)) l

/-- Whatever `f` returns is the value of the expression `c` at the sizes the arguments are taken to have, up to the
factor stated: for any coherent sizes of the units, for those of the SI if quantities are written in the expression. -/
def Describes (t : PrefixUse) (c : Code) (f : (ℕ → Val ℝ) → PyM (Val ℝ)) : Prop :=
  ∀ a, t.Admits a → ∀ r, f a = .ok r →
    ∀ ρ, Coherent ρ → (c.hasConst = true → ρ = fun s => (siSize s : ℝ)) →
      r.magn ρ = c.eval (t.taken ρ a) * offBy a t.off

end PrefixUse

end Verif
