import Verif.Units.Real
import Verif.Spec.Float

/-!
# The model over floating point numbers

The definitions of the model need nothing but the operations of the number type, so they also run over the numbers of a
floating point arithmetic; no operation of `Fl A` is exact except negation and the constants 0 and 1.
-/

namespace Verif

/-- A number of the arithmetic `A`. -/
structure Fl (A : FloatArith) where
  val : ℝ

namespace Fl
variable {A : FloatArith}

theorem val_injective : Function.Injective (Fl.val (A := A)) := by
  rintro ⟨x⟩ ⟨y⟩ h
  exact congrArg Fl.mk h

instance : Zero (Fl A) := ⟨⟨0⟩⟩
instance : One (Fl A) := ⟨⟨1⟩⟩
noncomputable instance : Add (Fl A) := ⟨fun x y => ⟨A.add x.val y.val⟩⟩
noncomputable instance : Sub (Fl A) := ⟨fun x y => ⟨A.sub x.val y.val⟩⟩
noncomputable instance : Mul (Fl A) := ⟨fun x y => ⟨A.mul x.val y.val⟩⟩
noncomputable instance : Div (Fl A) := ⟨fun x y => ⟨A.div x.val y.val⟩⟩
noncomputable instance : Neg (Fl A) := ⟨fun x => ⟨-x.val⟩⟩
noncomputable instance : NatCast (Fl A) := ⟨fun n => ⟨A.lit n⟩⟩
noncomputable instance : RatCast (Fl A) := ⟨fun q => ⟨A.lit q⟩⟩
noncomputable instance : LinearOrder (Fl A) := LinearOrder.lift' Fl.val val_injective

/-- As for the reals, with the power function of the arithmetic. -/
noncomputable instance : PyPow (Fl A) where
  pow x e :=
    if x.val = 0 ∧ e < 0 then .error .zeroDivision
    else if x.val < 0 ∧ e.den ≠ 1 then .error .complexResult
    else .ok ⟨A.pow x.val e⟩

@[simp] theorem val_zero : (0 : Fl A).val = 0 := rfl
@[simp] theorem val_one : (1 : Fl A).val = 1 := rfl
@[simp] theorem val_add (x y : Fl A) : (x + y).val = A.add x.val y.val := rfl
@[simp] theorem val_sub (x y : Fl A) : (x - y).val = A.sub x.val y.val := rfl
@[simp] theorem val_mul (x y : Fl A) : (x * y).val = A.mul x.val y.val := rfl
@[simp] theorem val_div (x y : Fl A) : (x / y).val = A.div x.val y.val := rfl
@[simp] theorem val_neg (x : Fl A) : (-x).val = -x.val := rfl
@[simp] theorem val_ratCast (q : ℚ) : ((q : ℚ) : Fl A).val = A.lit q := rfl

end Fl

end Verif
