import Mathlib.Analysis.Calculus.Deriv.Basic
import Mathlib.MeasureTheory.Measure.Haar.InnerProductSpace
import Mathlib.MeasureTheory.Integral.Bochner.Set

/-!
# A release at one point

The physical problem behind the pulse formulas, as conditions on an unknown concentration `u x t` (place in `d`-dimensional
space, time).  Nothing here refers to the library.
-/

namespace Verif

open Filter Topology MeasureTheory

/-- Space of `d` dimensions with the usual distances and volumes. -/
abbrev Space (d : ℕ) : Type := EuclideanSpace ℝ (Fin d)

/-- The direction of the `i`-th coordinate. -/
noncomputable def axis {d : ℕ} (i : Fin d) : Space d := EuclideanSpace.single i 1

/-- The diffusion equation `∂u/∂t = κ Σ ∂²u/∂xᵢ²` at one place and time. -/
def SpreadsAt {d : ℕ} (κ : ℝ) (u : Space d → ℝ → ℝ) (x : Space d) (t : ℝ) : Prop :=
  ∃ (g : Fin d → ℝ → ℝ) (c : Fin d → ℝ),
    (∀ i, (∀ᶠ r in 𝓝 0, HasDerivAt (fun r : ℝ => u (x + r • axis i) t) (g i r) r) ∧ HasDerivAt (g i) (c i) 0) ∧
    HasDerivAt (fun s => u x s) (κ * ∑ i, c i) t

/-- A field in all of space that is equal to `f` in the beginning: bounded, continuous, and obeying the diffusion equation
at positive times. -/
structure Spreading {d : ℕ} (κ : ℝ) (f : Space d → ℝ) (u : Space d → ℝ → ℝ) : Prop where
  bounded : ∃ M, ∀ x t, 0 ≤ t → |u x t| ≤ M
  continuous : ContinuousOn (fun p : Space d × ℝ => u p.1 p.2) (Set.univ ×ˢ Set.Ici 0)
  spreads : ∀ x t, 0 < t → SpreadsAt κ u x t
  start : ∀ x, u x 0 = f x

/-- The amount `m` released at the origin at time zero into empty space: at positive times `u` is continuous and obeys the
diffusion equation, it is bounded and integrable from any positive time on, and as time tends to zero all of the amount is
found at the origin, that is the amount weighted with any bounded continuous function tends to `m` times the weight of
the origin. -/
structure PointRelease {d : ℕ} (κ m : ℝ) (u : Space d → ℝ → ℝ) : Prop where
  bounded : ∀ s, 0 < s → ∃ M, ∀ x t, s ≤ t → |u x t| ≤ M
  continuous : ContinuousOn (fun p : Space d × ℝ => u p.1 p.2) (Set.univ ×ˢ Set.Ioi 0)
  spreads : ∀ x t, 0 < t → SpreadsAt κ u x t
  integrable : ∀ t, 0 < t → Integrable fun x => u x t
  start : ∀ φ : Space d → ℝ, Continuous φ → (∃ M, ∀ x, |φ x| ≤ M) →
    Tendsto (fun t => ∫ x, φ x * u x t) (𝓝[>] 0) (𝓝 (m * φ 0))

/-! ## A release in a corner -/

/-- The part of space in which the coordinates `S` are not negative: a half space for one, an octant for three. -/
def room {d : ℕ} (S : Finset (Fin d)) : Set (Space d) := {x | ∀ i ∈ S, 0 ≤ x i}

/-- The diffusion equation inside a room with walls that let nothing through.  On a wall the derivatives along the normal
are one sided, and the first one is zero. -/
def SpreadsIn {d : ℕ} (S : Finset (Fin d)) (κ : ℝ) (u : Space d → ℝ → ℝ) (x : Space d) (t : ℝ) : Prop :=
  ∃ (g : Fin d → ℝ → ℝ) (c : Fin d → ℝ),
    (∀ i, (∀ᶠ r in 𝓝[{r | x + r • axis i ∈ room S}] 0,
        HasDerivWithinAt (fun r : ℝ => u (x + r • axis i) t) (g i r) {r | x + r • axis i ∈ room S} r) ∧
      HasDerivWithinAt (g i) (c i) {r | x + r • axis i ∈ room S} 0) ∧
    (∀ i ∈ S, x i = 0 → g i 0 = 0) ∧
    HasDerivAt (fun s => u x s) (κ * ∑ i, c i) t

/-- The amount `m` released at the origin at time zero, into the empty room `room S`. -/
structure CornerRelease {d : ℕ} (S : Finset (Fin d)) (κ m : ℝ) (u : Space d → ℝ → ℝ) : Prop where
  bounded : ∀ s, 0 < s → ∃ M, ∀ x ∈ room S, ∀ t, s ≤ t → |u x t| ≤ M
  continuous : ContinuousOn (fun p : Space d × ℝ => u p.1 p.2) (room S ×ˢ Set.Ioi 0)
  spreads : ∀ x ∈ room S, ∀ t, 0 < t → SpreadsIn S κ u x t
  integrable : ∀ t, 0 < t → IntegrableOn (fun x => u x t) (room S)
  start : ∀ φ : Space d → ℝ, Continuous φ → (∃ M, ∀ x, |φ x| ≤ M) →
    Tendsto (fun t => ∫ x in room S, φ x * u x t) (𝓝[>] 0) (𝓝 (m * φ 0))

end Verif
