import Verif.Props.AnyPrefix

/-!
# What it means that a formula moves with one of its arguments

Nothing here depends on how a formula is computed: two calls are compared that differ in one argument.
-/

namespace Verif

/-- What happens to the result when one argument grows. -/
inductive Effect
  | same | up | down
  deriving DecidableEq

/-- `x` before, `y` after. -/
def Effect.Rel : Effect → ℝ → ℝ → Prop
  | .same, x, y => x = y
  | .up, x, y => x < y
  | .down, x, y => y < x

/-- The sign of an argument. -/
inductive Sgn
  | pos | neg
  deriving DecidableEq

def Sgn.Of : Sgn → ℝ → Prop
  | .pos, x => 0 < x
  | .neg, x => x < 0

/-- An argument: its kind, its sign if one is assumed, its effect if one is claimed. -/
structure TrendArg where
  kind : PTy
  sign : Option Sgn
  effect : Option Effect

/-- The arguments of a formula (`none` where it has no such argument) and pairs `(i, j)` with argument `i` above
argument `j`. -/
structure Trends where
  name : Sym
  args : List (Option TrendArg)
  above : List (ℕ × ℕ) := []

def Trends.arg (t : Trends) (i : ℕ) : Option TrendArg := t.args.getD i none

/-- The arguments are as described; `ρ` is the size of every unit. -/
def Trends.Admits (t : Trends) (ρ : Sym → ℝ) (a : ℕ → Val ℝ) : Prop :=
  (∀ i A, t.arg i = some A → A.kind.Has (a i) ∧ ∀ s, A.sign = some s → s.Of ((a i).magn ρ)) ∧
    ∀ p ∈ t.above, (a p.2).magn ρ < (a p.1).magn ρ

/-- Two calls that differ in argument `i` only, whatever units each argument is written in: the results differ as
claimed. -/
def Trends.Hold (t : Trends) (f : (ℕ → Val ℝ) → PyM (Val ℝ)) : Prop :=
  ∀ ρ, Coherent ρ → ∀ a b, t.Admits ρ a → t.Admits ρ b →
    ∀ i A e, t.arg i = some A → A.effect = some e →
      (∀ j, j ≠ i → (t.arg j).isSome → (a j).magn ρ = (b j).magn ρ) → (a i).magn ρ < (b i).magn ρ →
        ∀ r r', f a = .ok r → f b = .ok r' → e.Rel (r.magn ρ) (r'.magn ρ)

end Verif
