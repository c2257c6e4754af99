import Verif.Units.Code
import Verif.Spec.Machine

/-!
# The model over numbers of finite range

The model runs over the numbers of a `FloatMachine` as well.  A number is finite, or `lost`: some operation it depends on had an
exact result outside the range of the machine.  In Python such a number is infinite, not a number, inaccurate, or was never
returned because `**` or `math.exp` raised OverflowError; the model says nothing more about it.
-/

namespace Verif

/-- A number of the machine `M`, or a number that was lost to overflow or underflow. -/
inductive Ranged (M : FloatMachine)
  | fin (x : ℝ)
  | lost

namespace Ranged
variable {M : FloatMachine}

/-- The result `r` of an operation whose exact result is `x`. -/
noncomputable def checked (x r : ℝ) : Ranged M := open Classical in if M.normal x then fin r else lost

/-- An operation on two numbers; lost numbers stay lost. -/
noncomputable def op2 (exact run : ℝ → ℝ → ℝ) : Ranged M → Ranged M → Ranged M
  | fin x, fin y => checked (exact x y) (run x y)
  | _, _ => lost

/-- A function of one number. -/
noncomputable def op1 (exact run : ℝ → ℝ) : Ranged M → Ranged M
  | fin x => checked (exact x) (run x)
  | lost => lost

/-- The numbers in order, a lost number after all others. -/
def order : Ranged M → WithTop ℝ
  | fin x => x
  | lost => ⊤

theorem order_injective : Function.Injective (order (M := M)) := by
  rintro (x | _) (y | _) h
  · exact congrArg fin (WithTop.coe_injective h)
  · cases h
  · cases h
  · rfl

instance : Zero (Ranged M) := ⟨fin 0⟩
instance : One (Ranged M) := ⟨fin 1⟩
noncomputable instance : Add (Ranged M) := ⟨op2 (· + ·) M.add⟩
noncomputable instance : Sub (Ranged M) := ⟨op2 (· - ·) M.sub⟩
noncomputable instance : Mul (Ranged M) := ⟨op2 (· * ·) M.mul⟩
noncomputable instance : Div (Ranged M) := ⟨op2 (· / ·) M.div⟩
instance : Neg (Ranged M) where
  neg
    | fin x => fin (-x)
    | lost => lost
noncomputable instance : NatCast (Ranged M) := ⟨fun n => checked n (M.lit n)⟩
noncomputable instance : RatCast (Ranged M) := ⟨fun q => checked q (M.lit q)⟩
noncomputable instance : LinearOrder (Ranged M) := LinearOrder.lift' order order_injective

/-- As for the reals. -/
noncomputable instance : PyPow (Ranged M) where
  pow
    | fin x, e =>
      if x = 0 ∧ e < 0 then .error .zeroDivision
      else if x < 0 ∧ e.den ≠ 1 then .error .complexResult
      else .ok (checked (x ^ (e : ℝ)) (M.pow x e))
    | lost, _ => .ok lost

noncomputable instance : PyMath (Ranged M) where
  exp := op1 Real.exp M.exp
  log := op1 Real.log M.log
  sin := op1 Real.sin M.sin
  erf := op1 Verif.erf M.erf
  erfc := op1 (fun x => 1 - Verif.erf x) M.erfc
  pi := fin M.pi

end Ranged

end Verif
