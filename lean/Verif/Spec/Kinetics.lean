import Mathlib.Analysis.SpecialFunctions.Pow.Deriv

/-!
# Measurements of a reaction

Nothing here refers to the library.
-/

namespace Verif

/-- `data` are exact measurements, at the times `time`, of a concentration that follows the rate law `dC/dt = -k Cⁿ`. -/
def ReactionOfOrder (n : ℝ) (time data : List ℝ) : Prop :=
  ∃ (k : ℝ) (C : ℝ → ℝ) (I : Set ℝ), k ≠ 0 ∧ I.OrdConnected ∧ (∀ t ∈ time, t ∈ I) ∧
    (∀ t ∈ I, 0 < C t ∧ HasDerivWithinAt C (-(k * C t ^ n)) I t) ∧ data = time.map C

/-- At least three different times. -/
def ThreeTimes (time : List ℝ) : Prop := ∃ t₁ ∈ time, ∃ t₂ ∈ time, ∃ t₃ ∈ time, t₁ < t₂ ∧ t₂ < t₃

end Verif
