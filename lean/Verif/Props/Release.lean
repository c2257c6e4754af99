import Verif.Lemmas.Corner
import Verif.Props.Diffusion

/-!
# C92: the pulse formulas give the only way in which a release spreads
-/

namespace Verif

open Filter Topology MeasureTheory

theorem pulse_kernel {d : ℕ} (m D t : ℝ) (x : Space d) : pulse d m ‖x‖ D t = m * kernel D t x := by
  rw [pulse, kernel, mul_div_assoc]

/-- `one_d_pulse_decay`: the mass `m` released on the whole area `a` of a plane; `x` is the place on a line across it.
There is exactly one solution of this problem, and the function returns its value. -/
theorem C92_one_d (m a D : ℝ) (ha : a ≠ 0) (hD : 0 < D) :
    (∃ u : Space 1 → ℝ → ℝ, PointRelease D (m / a) u) ∧
    ∀ u : Space 1 → ℝ → ℝ, PointRelease D (m / a) u → ∀ x t, 0 < t →
      oneDPulse (massSI m) (areaSI a) (lenSI ‖x‖) (diffSI D) (timeSI t) = qMulti (u x t) c!"kg/m^3" := by
  refine ⟨⟨_, kernel_release hD _⟩, fun u hu x t ht => ?_⟩
  rw [C54_one_d m a _ D t ha hD ht, hu.eq_kernel hD x ht, ← pulse_kernel]
  norm_num

/-- `two_d_pulse_decay`: the mass `m` released along a line of length `l`; `x` is the place in a plane across it. -/
theorem C92_two_d (m l D : ℝ) (hl : l ≠ 0) (hD : 0 < D) :
    (∃ u : Space 2 → ℝ → ℝ, PointRelease D (m / l) u) ∧
    ∀ u : Space 2 → ℝ → ℝ, PointRelease D (m / l) u → ∀ x t, 0 < t →
      twoDPulse (massSI m) (lenSI l) (lenSI ‖x‖) (diffSI D) (timeSI t) = qMulti (u x t) c!"kg/m^3" := by
  refine ⟨⟨_, kernel_release hD _⟩, fun u hu x t ht => ?_⟩
  rw [C54_two_d m l _ D t hl hD ht, hu.eq_kernel hD x ht, ← pulse_kernel]
  norm_num

/-- The number of impermeable walls through the point of release that a shape stands for. -/
def wallsOf (shape : Sym) : ℕ := if shape = c!"hemisphere" then 1 else if shape = c!"cube" then 3 else 0

theorem shapeFactor_walls (shape : Sym) : shapeFactor shape = 2 ^ wallsOf shape := by
  unfold shapeFactor wallsOf
  split_ifs <;> norm_num

/-- `three_d_pulse_decay`: the mass `m` released at one point of a wall ("hemisphere"), in the corner of three walls
("cube"), or far from any wall (any other text).  There is exactly one solution, and the function returns its value. -/
theorem C92_three_d (m D : ℝ) (shape : Sym) (S : Finset (Fin 3)) (hS : S.card = wallsOf shape) (hD : 0 < D) :
    (∃ u : Space 3 → ℝ → ℝ, CornerRelease S D m u) ∧
    ∀ u : Space 3 → ℝ → ℝ, CornerRelease S D m u → ∀ x ∈ room S, ∀ t, 0 < t →
      threeDPulse (massSI m) (lenSI ‖x‖) (diffSI D) (timeSI t) shape = qMulti (u x t) c!"kg/m^3" := by
  refine ⟨⟨_, corner_release hD S m⟩, fun u hu x hx t ht => ?_⟩
  rw [C54_three_d m _ D t shape hD ht, hu.eq_kernel hD x hx t ht, hS, ← shapeFactor_walls, ← pulse_kernel]
  norm_num

/-- The two named shapes: one wall, and three walls. -/
theorem C92_shapes (m D : ℝ) (hD : 0 < D) :
    (∀ (i : Fin 3) (u : Space 3 → ℝ → ℝ), CornerRelease {i} D m u → ∀ x, 0 ≤ x i → ∀ t, 0 < t →
      threeDPulse (massSI m) (lenSI ‖x‖) (diffSI D) (timeSI t) c!"hemisphere" = qMulti (u x t) c!"kg/m^3") ∧
    ∀ u : Space 3 → ℝ → ℝ, CornerRelease Finset.univ D m u → ∀ x, (∀ i, 0 ≤ x i) → ∀ t, 0 < t →
      threeDPulse (massSI m) (lenSI ‖x‖) (diffSI D) (timeSI t) c!"cube" = qMulti (u x t) c!"kg/m^3" :=
  ⟨fun i u hu x hx t ht => (C92_three_d m D _ {i} rfl hD).2 u hu x (by simpa [room] using hx) t ht,
    fun u hu x hx t ht => (C92_three_d m D _ Finset.univ rfl hD).2 u hu x (fun i _ => hx i) t ht⟩

/-- A room with two walls (an edge) is offered under no name: no text for the shape gives its solution. -/
theorem C92_no_edge (m D : ℝ) (hm : m ≠ 0) (hD : 0 < D) (S : Finset (Fin 3)) (hS : S.card = 2) (shape : Sym)
    (u : Space 3 → ℝ → ℝ) (hu : CornerRelease S D m u) (x : Space 3) (hx : x ∈ room S) (t : ℝ) (ht : 0 < t) :
    threeDPulse (massSI m) (lenSI ‖x‖) (diffSI D) (timeSI t) shape ≠ qMulti (u x t) c!"kg/m^3" := by
  rw [C54_three_d m _ D t shape hD ht, hu.eq_kernel hD x hx t ht, hS]
  have h1 : pulse 3 (shapeFactor shape * m) ‖x‖ D t = shapeFactor shape * m * kernel D t x := by
    rw [← pulse_kernel]; norm_num
  rw [h1]
  intro h
  units_eval [Except.ok.injEq, Val.multi.injEq, MultiV.mk.injEq] at h
  have h2 := mul_right_cancel₀ (kernel_pos hD ht x).ne' h
  have h3 := mul_right_cancel₀ hm h2
  unfold shapeFactor at h3
  split_ifs at h3 <;> norm_num at h3

/-- The formulas may also be used to go on from any later time: a bounded field that has the computed values at the time
`s` and obeys the diffusion equation from then on has the computed values for ever. -/
theorem C92_restart {d : ℕ} (m D s : ℝ) (hD : 0 < D) (hs : 0 < s) (u : Space d → ℝ → ℝ)
    (hu : Spreading D (fun x => pulse d m ‖x‖ D s) u) : ∀ x t, 0 ≤ t → u x t = pulse d m ‖x‖ D (s + t) := by
  intro x t ht
  have h := (kernel_release (d := d) hD m).from_time hs
  simp only [← pulse_kernel] at h
  exact hu.unique hD.le h x t ht

/-- Non-vacuity: the half space over the first coordinate, one kilogram, one second. -/
example : ∃ u : Space 3 → ℝ → ℝ, CornerRelease {0} 1 1 u ∧
    threeDPulse (massSI 1) (lenSI ‖(0 : Space 3)‖) (diffSI 1) (timeSI 1) c!"hemisphere" = qMulti (u 0 1) c!"kg/m^3" ∧
    0 < u 0 1 := by
  obtain ⟨⟨u, hu⟩, h⟩ := C92_three_d 1 1 c!"hemisphere" {0} rfl one_pos
  refine ⟨u, hu, h u hu 0 (by simp [room]) 1 one_pos, ?_⟩
  rw [hu.eq_kernel one_pos 0 (by simp [room]) 1 one_pos]
  have := kernel_pos one_pos one_pos (0 : Space 3)
  positivity

/-- Non-vacuity: a release on a plane exists, and its concentration there is positive. -/
example : ∃ u : Space 1 → ℝ → ℝ, PointRelease 1 (1 / 1) u ∧ 0 < u 0 1 := by
  refine ⟨_, kernel_release one_pos _, ?_⟩
  have := kernel_pos one_pos one_pos (0 : Space 1)
  positivity

end Verif
