import Verif.Spec.Foreign

/-!
# What it means to carry out a calculation in other units
-/

namespace Verif

/-- Other units for the six quantities, and another zero for the temperature: a number `x` of dimension `d` in the old units
is `factor d * x` in the new ones, a temperature `factor d * x + shift`. -/
structure Change where
  size : Slot → ℝ
  pos : ∀ i, 0 < size i
  shift : ℝ

/-- `Π sizeᵢ ^ dᵢ`. -/
noncomputable def Change.factor (χ : Change) (d : Dim) : ℝ :=
  χ.size .length ^ (d.1 : ℝ) * (χ.size .mass ^ (d.2.1 : ℝ) * (χ.size .time ^ (d.2.2.1 : ℝ) *
    (χ.size .temperature ^ (d.2.2.2.1 : ℝ) * (χ.size .energy ^ (d.2.2.2.2.1 : ℝ) * χ.size .amount ^ (d.2.2.2.2.2 : ℝ)))))

def FKind.dim : FKind → Dim
  | .number => 0
  | .simple _ i e => e • i.dim
  | .compound d => d

/-- A temperature: the quantities whose zero is moved. -/
def FKind.isTemperature : FKind → Bool
  | .simple .temperature .temperature e => decide (e = 1)
  | _ => false

/-- The numbers of `b` are those of `a` in the new units. -/
def FCall.Corresponds (t : FCall) (χ : Change) (a b : ℕ → Val ℝ) : Prop :=
  ∀ i k, t.arg i = some k →
    (b i).amount = χ.factor k.1.dim * (a i).amount + if k.1.isTemperature then χ.shift else 0

end Verif
