import Mathlib.Analysis.Calculus.Deriv.Basic
import Mathlib.Topology.MetricSpace.Basic

/-!
# Temperature histories of slabs

The physical problems behind the transient formulas, as conditions on an unknown field `u x t` (position, time).  Nothing
here refers to the library.  The values at the surface and at the beginning differ, so a solution cannot be continuous at
the edges of the surface at time zero; elsewhere it has to be.
-/

namespace Verif

open Filter Topology

/-- The diffusion equation `∂u/∂t = κ ∂²u/∂x²` at one place and time. -/
def DiffusesAt (κ : ℝ) (u : ℝ → ℝ → ℝ) (x t : ℝ) : Prop :=
  ∃ (g : ℝ → ℝ) (c : ℝ), (∀ᶠ y in 𝓝 x, HasDerivAt (fun y => u y t) (g y) y) ∧ HasDerivAt g c x ∧
    HasDerivAt (fun s => u x s) (κ * c) t

/-- A body occupying `region` with surface `wall`, at `u0` in the beginning, whose surface is held at `us` from then on:
`u` is bounded, continuous at positive times, obeys the diffusion equation inside, and tends to `u0` at every inner place
as time tends to zero. -/
structure History (region wall : Set ℝ) (κ us u0 : ℝ) (u : ℝ → ℝ → ℝ) : Prop where
  bounded : ∃ M, ∀ x ∈ region, ∀ t, 0 < t → |u x t| ≤ M
  continuous : ContinuousOn (fun p : ℝ × ℝ => u p.1 p.2) (region ×ˢ Set.Ioi 0)
  diffuses : ∀ x ∈ region \ wall, ∀ t, 0 < t → DiffusesAt κ u x t
  surface : ∀ x ∈ wall, ∀ t, 0 < t → u x t = us
  start : ∀ x ∈ region \ wall, Tendsto (fun p : ℝ × ℝ => u p.1 p.2) (𝓝 x ×ˢ 𝓝[>] 0) (𝓝 u0)

/-- A slab between `a` and `b` whose two surfaces are held at `us`. -/
abbrev SlabHistory (a b κ us u0 : ℝ) (u : ℝ → ℝ → ℝ) : Prop := History (Set.Icc a b) {a, b} κ us u0 u

/-- A body filling the half space `0 ≤ x`. -/
abbrev HalfSpaceHistory (κ us u0 : ℝ) (u : ℝ → ℝ → ℝ) : Prop := History (Set.Ici 0) {0} κ us u0 u

end Verif
