import Verif.Props.Water

/-!
# The rows of the water table on its 10 K grid

The relations between neighbouring rows that C89 needs, decided on the whole table.
-/

namespace Verif

/-! ## Columns on the grid -/

/-- Column `i` in row `n` of the 10 K grid. -/
def gridCell (i n : ℕ) : ℚ :=
  match waterRow ((n : ℤ) * 10 + 275) with
  | .ok row => match row[i]? with
    | some (.num q) => q
    | _ => 0
  | .error _ => 0

/-- Between two rows of the grid a column is linear. -/
theorem waterColumn_cell {i : ℕ} (hi : i < 11) (h7 : i ≠ 7) {n : ℕ} (hn : n < 107) {T : ℝ} (hl : 275 + 10 * (n : ℝ) ≤ T)
    (hu : T ≤ 285 + 10 * (n : ℝ)) :
    waterColumn i T = gridCell i n + (T - (275 + 10 * n)) / 10 * (gridCell i (n + 1) - gridCell i n) := by
  obtain ⟨r1, m1, s1⟩ := waterRow_grid (n := n) (by omega)
  obtain ⟨r2, m2, s2⟩ := waterRow_grid' hn
  obtain ⟨a, b, c, d, e, f, g, p, x, y, z, rfl⟩ := waterShape_cases s1
  obtain ⟨a', b', c', d', e', f', g', p', x', y', z', rfl⟩ := waterShape_cases s2
  have e1 := waterRow_of_mem (k := (n : ℤ) * 10 + 275) m1 (by push_cast; ring)
  have e2 := waterRow_of_mem (k := ((n + 1 : ℕ) : ℤ) * 10 + 275) m2 (by push_cast; ring)
  simp only [gridCell, e1, e2, waterColumn, C37_cell hn m1 m2 hl hu]
  interval_cases i <;> first
    | exact absurd rfl h7
    | rfl

theorem cell_t {n : ℕ} {T : ℝ} (hl : 275 + 10 * (n : ℝ) ≤ T) (hu : T ≤ 285 + 10 * (n : ℝ)) :
    0 ≤ (T - (275 + 10 * (n : ℝ))) / 10 ∧ (T - (275 + 10 * (n : ℝ))) / 10 ≤ 1 := by
  constructor
  · apply div_nonneg <;> linarith
  · rw [div_le_one] <;> linarith

theorem enthalpy_table : ∀ n ∈ List.range 108,
    |gridCell 4 n - (gridCell 6 n + 10132 / 100 * gridCell 10 n)| ≤ 115 / 1000 := by
  decide +kernel

theorem capacity_table : ∀ n ∈ List.range 108, 0 < gridCell 2 n ∧ gridCell 2 n + 7 / 10000 ≤ gridCell 1 n := by
  decide +kernel

theorem monotone_table : ∀ n ∈ List.range 107, gridCell 3 (n + 1) < gridCell 3 n ∧ gridCell 4 n < gridCell 4 (n + 1) ∧
    gridCell 5 n < gridCell 5 (n + 1) ∧ gridCell 6 n < gridCell 6 (n + 1) ∧ gridCell 10 n < gridCell 10 (n + 1) ∧
    (n ≠ 9 → gridCell 8 n < gridCell 8 (n + 1)) ∧ (n ≤ 9 → gridCell 9 (n + 1) < gridCell 9 n) ∧
    (10 ≤ n → gridCell 9 n < gridCell 9 (n + 1)) := by
  decide +kernel

theorem heating_table : ∀ n ∈ List.range 107, n ≠ 9 →
    |(gridCell 4 (n + 1) - gridCell 4 n) / 10 - gridCell 1 n| ≤ 22 / 1000 ∧
    |(gridCell 4 (n + 1) - gridCell 4 n) / 10 - gridCell 1 (n + 1)| ≤ 22 / 1000 := by
  decide +kernel

theorem entropy_table : ∀ n ∈ List.range 107, n ≠ 9 →
    |(gridCell 5 (n + 1) - gridCell 5 n) / 10 * (275 + 10 * n) - gridCell 1 n| ≤ 87 / 1000 ∧
    |(gridCell 5 (n + 1) - gridCell 5 n) / 10 * (285 + 10 * n) - gridCell 1 (n + 1)| ≤ 87 / 1000 := by
  decide +kernel

theorem density_table : ∀ n ∈ List.range 108, |gridCell 3 n * gridCell 10 n - 1| ≤ 45 / 1000000 := by
  decide +kernel

theorem density_mixed_table : ∀ n ∈ List.range 107, n ≠ 9 →
    |gridCell 3 n * gridCell 10 (n + 1) + gridCell 3 (n + 1) * gridCell 10 n - 2| ≤ 8 / 10000 := by
  decide +kernel

theorem gas_table : ∀ n ∈ List.range 108, 10 ≤ n →
    984 / 1000 * (46152 / 100000 * (275 + 10 * n)) ≤ 10132 / 100 * gridCell 10 n ∧
    10132 / 100 * gridCell 10 n ≤ 46152 / 100000 * (275 + 10 * n) := by
  decide +kernel

end Verif
