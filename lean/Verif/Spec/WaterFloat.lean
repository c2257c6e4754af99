import Verif.Utility.WaterFloat

/-!
# What the rows of the water table say about the temperatures between them
-/

namespace Verif

/-- `v` is what stands a fraction `t` of the way from one entry to the other, up to `2^-50` of the larger entry; a phase
changes just above the lower row. -/
def NearCell (t : ℝ) : WCell → WCell → WVal → Prop
  | .num a, .num b, .num x => |x - (a + t * (b - a))| ≤ 2⁻¹ ^ 50 * max (a : ℝ) b
  | .str a, .str b, .str s => (t = 0 → s = a) ∧ (t ≠ 0 → s = b)
  | _, _, _ => False

/-- Entry by entry. -/
def NearRow (t : ℝ) : List WCell → List WCell → List WVal → Prop
  | [], [], [] => True
  | c :: r1, d :: r2, v :: l => NearCell t c d v ∧ NearRow t r1 r2 l
  | _, _, _ => False

/-- The number in column `i` of the result in floating point. -/
noncomputable def waterColumnFl (r : ℝ → ℝ) (i : ℕ) (T : ℝ) : ℝ :=
  match waterDataFl r T with
  | .ok l => match l[i + 1]? with
    | some (.num x) => x
    | _ => 0
  | .error _ => 0

end Verif
