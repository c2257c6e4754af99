import Verif.Spec.Returns
import Verif.Props.FloatCounts

/-!
# What can go wrong in an expression over the real numbers

Nothing here knows of units.
-/

namespace Verif

/-- `x ** q` cannot be computed: zero to a negative power, or a negative number to a power that is not whole (Python returns
a complex number, which is outside the model). -/
noncomputable def powFault (x : ℝ) (q : ℚ) : Option Err :=
  if x = 0 ∧ q < 0 then some .zeroDivision else if x < 0 ∧ q.den ≠ 1 then some .complexResult else none

/-- `log` needs a positive number. -/
noncomputable def Fn.fault : Fn → ℝ → Option Err
  | .log, x => if x ≤ 0 then some .valueError else none
  | _, _ => none

/-- The first fault of the expression on plain numbers, from left to right: a division by zero, a power, the logarithm of a
number that is not positive. -/
noncomputable def Code.fault (a : ℕ → ℝ) : Code → Option Err
  | .var _ | .lit _ | .pi | .const _ _ _ => none
  | .mul x y | .add x y | .sub x y => (x.fault a).or (y.fault a)
  | .div x y => ((x.fault a).or (y.fault a)).or (if y.eval a = 0 then some .zeroDivision else none)
  | .neg x | .conv x _ => x.fault a
  | .pow x q => (x.fault a).or (powFault (x.eval a) q)
  | .fn f x => (x.fault a).or (f.fault (x.eval a))

/-- The arguments are of the kinds of the call; nothing is said of their numbers. -/
structure SICall.Fits (t : SICall) (a : ℕ → Val ℝ) : Prop where
  kind : ∀ i k, t.arg i = some k → k.1.Is (a i)
  alike : ∀ p ∈ t.alike, (a p.1).Alike (a p.2)

theorem SICall.Admits.fits {t : SICall} {a : ℕ → Val ℝ} (h : t.Admits a) : t.Fits a := ⟨h.kind, h.alike⟩

end Verif
