import Verif.Lemmas.WaterGrid
import Mathlib.Analysis.Calculus.MeanValue
import Mathlib.Order.Monotone.Union
import Mathlib.Analysis.SpecialFunctions.Integrals.Basic
import Mathlib.MeasureTheory.Integral.IntervalIntegral.FundThmCalculus

/-!
# C89: the properties of water reported at one temperature are consistent with each other

The thermodynamic relations below are stated for the columns of the list returned by `get_water_properties(T, False)`,
which are the attributes of the object (C38): 1 cp, 2 cv, 3 density, 4 enthalpy, 5 entropy, 6 internal energy, 8 thermal
conductivity, 9 viscosity, 10 specific volume.
-/

namespace Verif

open Set

/-! ## The theorems -/

/-- The two grid rows around a temperature. -/
theorem column_exists {T : ℝ} (h1 : 275 ≤ T) (h2 : T ≤ 1345) : ∃ n : ℕ, n < 107 ∧ ∃ t : ℝ, 0 ≤ t ∧ t ≤ 1 ∧
    T = 275 + 10 * n + 10 * t ∧
    ∀ i, i < 11 → i ≠ 7 → waterColumn i T = gridCell i n + t * (gridCell i (n + 1) - gridCell i n) := by
  obtain ⟨n, hn, hl, hu⟩ := waterCell_exists h1 h2
  exact ⟨n, hn, (T - (275 + 10 * n)) / 10, (cell_t hl hu).1, (cell_t hl hu).2, by ring,
    fun i hi h7 => waterColumn_cell hi h7 hn hl hu⟩

/-- As `column_exists`, in a cell of liquid or of steam. -/
theorem column_exists_phase {T : ℝ} (h : (275 ≤ T ∧ T ≤ 365) ∨ (375 ≤ T ∧ T ≤ 1345)) : ∃ n : ℕ, n < 107 ∧ n ≠ 9 ∧
    (375 ≤ T → 10 ≤ n) ∧ ∃ t : ℝ, 0 ≤ t ∧ t ≤ 1 ∧ T = 275 + 10 * n + 10 * t ∧
    ∀ i, i < 11 → i ≠ 7 → waterColumn i T = gridCell i n + t * (gridCell i (n + 1) - gridCell i n) := by
  have key : ∃ n : ℕ, n < 107 ∧ n ≠ 9 ∧ (375 ≤ T → 10 ≤ n) ∧ 275 + 10 * (n : ℝ) ≤ T ∧ T ≤ 285 + 10 * (n : ℝ) := by
    rcases h with ⟨h1, h2⟩ | ⟨h1, h2⟩
    · obtain ⟨n, hn, hl, hu⟩ := waterCell_exists h1 (by linarith)
      have h9 : n ≤ 9 := by
        have : (n : ℝ) ≤ 9 := by linarith
        exact_mod_cast this
      rcases eq_or_lt_of_le h9 with rfl | h9
      · exact ⟨8, by decide, by decide, fun h => by linarith, by push_cast at hl ⊢; linarith, by push_cast at hl ⊢; linarith⟩
      · exact ⟨n, hn, by omega, fun h => by linarith, hl, hu⟩
    · obtain ⟨n, hn, hl, hu⟩ := waterCell_exists (by linarith) h2
      have h9 : 9 ≤ n := by
        have : (9 : ℝ) ≤ n := by linarith
        exact_mod_cast this
      rcases eq_or_lt_of_le h9 with rfl | h9
      · exact ⟨10, by decide, by decide, fun _ => le_rfl, by push_cast at hu ⊢; linarith, by push_cast at hu ⊢; linarith⟩
      · exact ⟨n, hn, by omega, fun _ => by omega, hl, hu⟩
  obtain ⟨n, hn, h9, h10, hl, hu⟩ := key
  exact ⟨n, hn, h9, h10, (T - (275 + 10 * n)) / 10, (cell_t hl hu).1, (cell_t hl hu).2, by ring,
    fun i hi h7 => waterColumn_cell hi h7 hn hl hu⟩

/-- An inequality between rationals, read in the reals. -/
theorem abs_cast {q c : ℚ} (h : |q| ≤ c) : |(q : ℝ)| ≤ c := by exact_mod_cast h

/-- **C89**: enthalpy is internal energy plus pressure times volume, to 0.115 kJ/kg, at every temperature of the table. -/
theorem C89_enthalpy {T : ℝ} (h1 : 275 ≤ T) (h2 : T ≤ 1345) :
    |waterColumn 4 T - (waterColumn 6 T + 10132 / 100 * waterColumn 10 T)| ≤ 115 / 1000 := by
  obtain ⟨n, hn, t, h0, ht, -, hc⟩ := column_exists h1 h2
  rw [hc 4 (by decide) (by decide), hc 6 (by decide) (by decide), hc 10 (by decide) (by decide)]
  have a := abs_cast (enthalpy_table n (List.mem_range.2 (by omega)))
  have b := abs_cast (enthalpy_table (n + 1) (List.mem_range.2 (by omega)))
  push_cast at a b
  rw [abs_le] at a b ⊢
  constructor <;> nlinarith

/-- **C89**: the heat capacity at constant pressure exceeds that at constant volume, which is positive. -/
theorem C89_heat_capacities {T : ℝ} (h1 : 275 ≤ T) (h2 : T ≤ 1345) :
    0 < waterColumn 2 T ∧ waterColumn 2 T < waterColumn 1 T := by
  obtain ⟨n, hn, t, h0, ht, -, hc⟩ := column_exists h1 h2
  rw [hc 1 (by decide) (by decide), hc 2 (by decide) (by decide)]
  obtain ⟨a, a'⟩ := capacity_table n (List.mem_range.2 (by omega))
  obtain ⟨b, b'⟩ := capacity_table (n + 1) (List.mem_range.2 (by omega))
  have a : (0 : ℝ) < gridCell 2 n := by exact_mod_cast a
  have b : (0 : ℝ) < gridCell 2 (n + 1) := by exact_mod_cast b
  have a' := (Rat.cast_le (K := ℝ)).2 a'
  have b' := (Rat.cast_le (K := ℝ)).2 b'
  push_cast at a' b'
  constructor
  · rcases eq_or_lt_of_le ht with rfl | ht
    · linarith
    · nlinarith
  · nlinarith

/-- **C89**: steam obeys the ideal gas law to 1.6 %, from above. -/
theorem C89_ideal_gas {T : ℝ} (h1 : 375 ≤ T) (h2 : T ≤ 1345) :
    984 / 1000 * (46152 / 100000 * T) ≤ 10132 / 100 * waterColumn 10 T ∧
      10132 / 100 * waterColumn 10 T ≤ 46152 / 100000 * T := by
  obtain ⟨n, hn, -, h10, t, h0, ht, hT, hc⟩ := column_exists_phase (Or.inr ⟨h1, h2⟩)
  rw [hc 10 (by decide) (by decide)]
  obtain ⟨a, a'⟩ := gas_table n (List.mem_range.2 (by omega)) (h10 h1)
  obtain ⟨b, b'⟩ := gas_table (n + 1) (List.mem_range.2 (by omega)) (by have := h10 h1; omega)
  have a := (Rat.cast_le (K := ℝ)).2 a
  have b := (Rat.cast_le (K := ℝ)).2 b
  have a' := (Rat.cast_le (K := ℝ)).2 a'
  have b' := (Rat.cast_le (K := ℝ)).2 b'
  push_cast at a b a' b'
  constructor <;> rw [hT] <;> nlinarith

/-! ## Monotonicity -/

/-- A function which increases strictly on each cell increases strictly on a run of cells. -/
theorem strictMonoOn_cells {f : ℝ → ℝ} {a : ℕ} : ∀ {m : ℕ},
    (∀ n, a ≤ n → n < a + m → StrictMonoOn f (Icc (275 + 10 * (n : ℝ)) (285 + 10 * n))) →
    StrictMonoOn f (Icc (275 + 10 * (a : ℝ)) (275 + 10 * ((a + m : ℕ) : ℝ)))
  | 0, _ => by
    simp only [add_zero, Icc_self]
    exact fun x hx y hy h => absurd h (by rw [mem_singleton_iff.1 hx, mem_singleton_iff.1 hy]; exact lt_irrefl _)
  | m + 1, h => by
    have ih := strictMonoOn_cells (m := m) fun n h1 h2 => h n h1 (by omega)
    have hl := h (a + m) (by omega) (by omega)
    have hu := StrictMonoOn.union ih hl (c := 275 + 10 * ((a + m : ℕ) : ℝ))
      ⟨right_mem_Icc.2 (by push_cast; have := (Nat.cast_nonneg m : (0 : ℝ) ≤ m); linarith), fun x hx => hx.2⟩
      ⟨left_mem_Icc.2 (by linarith), fun x hx => hx.1⟩
    rw [Icc_union_Icc_eq_Icc (by push_cast; have := (Nat.cast_nonneg m : (0 : ℝ) ≤ m); linarith) (by linarith)] at hu
    have e : (275 : ℝ) + 10 * ((a + (m + 1) : ℕ) : ℝ) = 285 + 10 * ((a + m : ℕ) : ℝ) := by push_cast; ring
    rwa [e]

theorem column_mono_cell {i : ℕ} (hi : i < 11) (h7 : i ≠ 7) {n : ℕ} (hn : n < 107) (h : gridCell i n < gridCell i (n + 1)) :
    StrictMonoOn (waterColumn i) (Icc (275 + 10 * (n : ℝ)) (285 + 10 * n)) := by
  intro x hx y hy hxy
  rw [waterColumn_cell hi h7 hn hx.1 hx.2, waterColumn_cell hi h7 hn hy.1 hy.2]
  have h : (gridCell i n : ℝ) < gridCell i (n + 1) := by exact_mod_cast h
  nlinarith

theorem column_anti_cell {i : ℕ} (hi : i < 11) (h7 : i ≠ 7) {n : ℕ} (hn : n < 107) (h : gridCell i (n + 1) < gridCell i n) :
    StrictMonoOn (fun T => -waterColumn i T) (Icc (275 + 10 * (n : ℝ)) (285 + 10 * n)) := by
  intro x hx y hy hxy
  simp only
  rw [waterColumn_cell hi h7 hn hx.1 hx.2, waterColumn_cell hi h7 hn hy.1 hy.2]
  have h : (gridCell i (n + 1) : ℝ) < gridCell i n := by exact_mod_cast h
  nlinarith

theorem column_mono {i : ℕ} (hi : i < 11) (h7 : i ≠ 7) {a m : ℕ} (hm : a + m ≤ 107)
    (h : ∀ n, a ≤ n → n < a + m → gridCell i n < gridCell i (n + 1)) :
    StrictMonoOn (waterColumn i) (Icc (275 + 10 * (a : ℝ)) (275 + 10 * ((a + m : ℕ) : ℝ))) :=
  strictMonoOn_cells fun n h1 h2 => column_mono_cell hi h7 (by omega) (h n h1 h2)

theorem column_anti {i : ℕ} (hi : i < 11) (h7 : i ≠ 7) {a m : ℕ} (hm : a + m ≤ 107)
    (h : ∀ n, a ≤ n → n < a + m → gridCell i (n + 1) < gridCell i n) :
    StrictAntiOn (waterColumn i) (Icc (275 + 10 * (a : ℝ)) (275 + 10 * ((a + m : ℕ) : ℝ))) := by
  have hs := strictMonoOn_cells (f := fun T => -waterColumn i T) (a := a) (m := m)
    fun n h1 h2 => column_anti_cell hi h7 (by omega) (h n h1 h2)
  exact fun x hx y hy hxy => neg_lt_neg_iff.1 (hs hx hy hxy)

/-- **C89**: heating raises enthalpy, entropy, internal energy and volume and lowers the density, at every temperature. -/
theorem C89_heating_raises : StrictMonoOn (waterColumn 4) (Icc 275 1345) ∧ StrictMonoOn (waterColumn 5) (Icc 275 1345) ∧
    StrictMonoOn (waterColumn 6) (Icc 275 1345) ∧ StrictMonoOn (waterColumn 10) (Icc 275 1345) ∧
    StrictAntiOn (waterColumn 3) (Icc 275 1345) := by
  have e : Icc (275 : ℝ) 1345 = Icc (275 + 10 * ((0 : ℕ) : ℝ)) (275 + 10 * ((0 + 107 : ℕ) : ℝ)) := by norm_num
  rw [e]
  exact ⟨column_mono (by decide) (by decide) (by decide) fun n _ h => (monotone_table n (List.mem_range.2 (by omega))).2.1,
    column_mono (by decide) (by decide) (by decide) fun n _ h => (monotone_table n (List.mem_range.2 (by omega))).2.2.1,
    column_mono (by decide) (by decide) (by decide) fun n _ h => (monotone_table n (List.mem_range.2 (by omega))).2.2.2.1,
    column_mono (by decide) (by decide) (by decide) fun n _ h => (monotone_table n (List.mem_range.2 (by omega))).2.2.2.2.1,
    column_anti (by decide) (by decide) (by decide) fun n _ h => (monotone_table n (List.mem_range.2 (by omega))).1⟩

/-- **C89**: within a phase the thermal conductivity rises; the viscosity of the liquid falls and that of steam rises. -/
theorem C89_transport : StrictMonoOn (waterColumn 8) (Icc 275 365) ∧ StrictMonoOn (waterColumn 8) (Icc 375 1345) ∧
    StrictAntiOn (waterColumn 9) (Icc 275 375) ∧ StrictMonoOn (waterColumn 9) (Icc 375 1345) := by
  have e1 : Icc (275 : ℝ) 365 = Icc (275 + 10 * ((0 : ℕ) : ℝ)) (275 + 10 * ((0 + 9 : ℕ) : ℝ)) := by norm_num
  have e2 : Icc (375 : ℝ) 1345 = Icc (275 + 10 * ((10 : ℕ) : ℝ)) (275 + 10 * ((10 + 97 : ℕ) : ℝ)) := by norm_num
  have e3 : Icc (275 : ℝ) 375 = Icc (275 + 10 * ((0 : ℕ) : ℝ)) (275 + 10 * ((0 + 10 : ℕ) : ℝ)) := by norm_num
  rw [e1, e2, e3]
  exact ⟨column_mono (by decide) (by decide) (by decide) fun n _ h =>
      (monotone_table n (List.mem_range.2 (by omega))).2.2.2.2.2.1 (by omega),
    column_mono (by decide) (by decide) (by decide) fun n _ h =>
      (monotone_table n (List.mem_range.2 (by omega))).2.2.2.2.2.1 (by omega),
    column_anti (by decide) (by decide) (by decide) fun n _ h =>
      (monotone_table n (List.mem_range.2 (by omega))).2.2.2.2.2.2.1 (by omega),
    column_mono (by decide) (by decide) (by decide) fun n _ h =>
      (monotone_table n (List.mem_range.2 (by omega))).2.2.2.2.2.2.2 (by omega)⟩

/-! ## Density and specific volume -/

/-- **C89**, what does hold: outside the cell of the boiling point density and specific volume are reciprocal to 0.025 %.
Missing: the cell from 365 K to 375 K (`C89_density_volume_false`). -/
theorem C89_density_volume_partial {T : ℝ} (h : (275 ≤ T ∧ T ≤ 365) ∨ (375 ≤ T ∧ T ≤ 1345)) :
    |waterColumn 3 T * waterColumn 10 T - 1| ≤ 25 / 100000 := by
  obtain ⟨n, hn, h9, -, t, h0, ht, -, hc⟩ := column_exists_phase h
  rw [hc 3 (by decide) (by decide), hc 10 (by decide) (by decide)]
  have a := abs_cast (density_table n (List.mem_range.2 (by omega)))
  have b := abs_cast (density_table (n + 1) (List.mem_range.2 (by omega)))
  have c := abs_cast (density_mixed_table n (List.mem_range.2 hn) h9)
  push_cast at a b c
  have e : ((gridCell 3 n : ℝ) + t * (gridCell 3 (n + 1) - gridCell 3 n)) *
      (gridCell 10 n + t * (gridCell 10 (n + 1) - gridCell 10 n)) - 1 =
      (1 - t) ^ 2 * (gridCell 3 n * gridCell 10 n - 1) + t ^ 2 * (gridCell 3 (n + 1) * gridCell 10 (n + 1) - 1) +
      t * (1 - t) * (gridCell 3 n * gridCell 10 (n + 1) + gridCell 3 (n + 1) * gridCell 10 n - 2) := by ring
  rw [e, abs_le]
  have q1 : 0 ≤ (1 - t) ^ 2 := sq_nonneg _
  have q2 : 0 ≤ t ^ 2 := sq_nonneg _
  have q3 : 0 ≤ t * (1 - t) := mul_nonneg h0 (by linarith)
  have q4 : t * (1 - t) ≤ 1 / 4 := by nlinarith [sq_nonneg (t - 1 / 2)]
  have q5 : (1 - t) ^ 2 + t ^ 2 ≤ 1 := by nlinarith
  rw [abs_le] at a b c
  constructor
  · nlinarith [mul_le_mul_of_nonneg_left a.1 q1, mul_le_mul_of_nonneg_left b.1 q2, mul_le_mul_of_nonneg_left c.1 q3]
  · nlinarith [mul_le_mul_of_nonneg_left a.2 q1, mul_le_mul_of_nonneg_left b.2 q2, mul_le_mul_of_nonneg_left c.2 q3]

/-- **C89** is false in the cell of the boiling point: both columns are interpolated between liquid and steam, and their
product, which should be 1, is above 146 for every temperature from 366 K to 374 K. -/
theorem C89_density_volume_false {T : ℝ} (h1 : 366 ≤ T) (h2 : T ≤ 374) :
    146 < waterColumn 3 T * waterColumn 10 T := by
  have hl : 275 + 10 * ((9 : ℕ) : ℝ) ≤ T := by norm_num; linarith
  have hu : T ≤ 285 + 10 * ((9 : ℕ) : ℝ) := by norm_num; linarith
  rw [waterColumn_cell (by decide) (by decide) (by decide) hl hu, waterColumn_cell (by decide) (by decide) (by decide) hl hu]
  obtain ⟨a, b, c, d⟩ : gridCell 3 9 = 48203 / 50 ∧ gridCell 3 (9 + 1) = 29721 / 50000 ∧
      gridCell 10 9 = 10373 / 10000000 ∧ gridCell 10 (9 + 1) = 16823 / 10000 := by decide +kernel
  rw [a, b, c, d]
  push_cast
  nlinarith [mul_nonneg (sub_nonneg.2 h1) (sub_nonneg.2 h2)]

/-! ## Heating within one phase -/

/-- The right derivative of a column is its slope in the cell. -/
theorem column_deriv {i : ℕ} (hi : i < 11) (h7 : i ≠ 7) {T : ℝ} (h1 : 275 ≤ T) (h2 : T < 1345) :
    ∃ n : ℕ, n < 107 ∧ 275 + 10 * (n : ℝ) ≤ T ∧ T < 285 + 10 * (n : ℝ) ∧
      HasDerivWithinAt (waterColumn i) ((gridCell i (n + 1) - gridCell i n) / 10 : ℚ) (Ici T) T := by
  obtain ⟨n, hn, hl, hu⟩ : ∃ n : ℕ, n < 107 ∧ 275 + 10 * (n : ℝ) ≤ T ∧ T < 285 + 10 * (n : ℝ) := by
    obtain ⟨n, hn, hl, hu⟩ := waterCell_exists h1 h2.le
    rcases eq_or_lt_of_le hu with hu | hu
    · have h6 : n < 106 := by
        have : (n : ℝ) < 106 := by linarith
        exact_mod_cast this
      exact ⟨n + 1, by omega, by push_cast; linarith, by push_cast; linarith⟩
    · exact ⟨n, hn, hl, hu⟩
  refine ⟨n, hn, hl, hu, ?_⟩
  have hd : HasDerivAt (fun x : ℝ => gridCell i n + (x - (275 + 10 * n)) / 10 * (gridCell i (n + 1) - gridCell i n))
      ((gridCell i (n + 1) - gridCell i n) / 10 : ℚ) T := by
    have h := ((((hasDerivAt_id T).sub_const (275 + 10 * (n : ℝ))).div_const 10).mul_const
      ((gridCell i (n + 1) : ℝ) - gridCell i n)).const_add (gridCell i n : ℝ)
    refine h.congr_deriv ?_
    push_cast
    ring
  refine hd.hasDerivWithinAt.congr_of_eventuallyEq_of_mem ?_ self_mem_Ici
  filter_upwards [Icc_mem_nhdsGE hu] with x hx
  exact waterColumn_cell hi h7 hn (hl.trans hx.1) hx.2

/-- A column and the integral of a continuous rate differ by at most the largest difference of slope and rate. -/
theorem column_integral {i : ℕ} (hi : i < 11) (h7 : i ≠ 7) {f : ℝ → ℝ} {a b c : ℝ} (hab : a ≤ b) (ha : 275 ≤ a)
    (hb : b ≤ 1345) (hf : ContinuousOn f (Icc a b))
    (h : ∀ n : ℕ, n < 107 → ∀ T, a ≤ T → T < b → 275 + 10 * (n : ℝ) ≤ T → T < 285 + 10 * (n : ℝ) →
      |(((gridCell i (n + 1) - gridCell i n) / 10 : ℚ) : ℝ) - f T| ≤ c) :
    |waterColumn i b - waterColumn i a - ∫ T in a..b, f T| ≤ c * (b - a) := by
  have hcol : ContinuousOn (waterColumn i) (Icc a b) := (C37_continuous hi h7).mono (Icc_subset_Icc ha hb)
  have hint : ∀ x ∈ Icc a b, IntervalIntegrable f MeasureTheory.volume a x := fun x hx =>
    (hf.mono (by rw [uIcc_of_le hx.1]; exact Icc_subset_Icc_right hx.2)).intervalIntegrable
  have hI : ContinuousOn (fun x => ∫ T in a..x, f T) (Icc a b) := by
    have := intervalIntegral.continuousOn_primitive_interval (μ := MeasureTheory.volume) (f := f) (a := a) (b := b)
      (by rw [uIcc_of_le hab]; exact hf.integrableOn_Icc)
    rwa [uIcc_of_le hab] at this
  have key := norm_image_sub_le_of_norm_deriv_right_le_segment
    (f := fun x => waterColumn i x - ∫ T in a..x, f T)
    (f' := fun x => derivWithin (fun x => waterColumn i x - ∫ T in a..x, f T) (Ici x) x) (C := c) (a := a) (b := b)
    (hcol.sub hI) ?_ ?_ b ⟨hab, le_rfl⟩
  · simpa [Real.norm_eq_abs, sub_right_comm] using key
  all_goals
    intro x hx
    obtain ⟨n, hn, hl, hu, hd⟩ := column_deriv hi h7 (ha.trans hx.1) (hx.2.trans_le hb)
    have hle : nhdsWithin x (Ioi x) ≤ nhdsWithin x (Icc a b) :=
      nhdsWithin_le_iff.2 (Filter.mem_of_superset (Ioo_mem_nhdsGT hx.2) fun y hy => ⟨hx.1.trans hy.1.le, hy.2.le⟩)
    have hfx : ContinuousWithinAt f (Ioi x) x := Filter.Tendsto.mono_left (hf x ⟨hx.1, hx.2.le⟩) hle
    have hm : StronglyMeasurableAtFilter f (nhdsWithin x (Ioi x)) :=
      (hf.stronglyMeasurableAtFilter_nhdsWithin measurableSet_Icc x).filter_mono hle
    have hD := hd.fun_sub (intervalIntegral.integral_hasDerivWithinAt_right (s := Ici x) (t := Ioi x)
      (hint x ⟨hx.1, hx.2.le⟩) hm hfx)
    first
      | exact hD.differentiableWithinAt.hasDerivWithinAt
      | rw [hD.derivWithin (uniqueDiffOn_Ici x x self_mem_Ici)]
        exact h n hn x hx.1 hx.2 hl hu


/-- A temperature between two of the same phase is not in the cell of the boiling point. -/
theorem phase_cell {a b T : ℝ} {n : ℕ} (h : b ≤ 365 ∨ 375 ≤ a) (ha : a ≤ T) (hb : T < b)
    (hl : 275 + 10 * (n : ℝ) ≤ T) (hu : T < 285 + 10 * (n : ℝ)) : n ≠ 9 := by
  rintro rfl
  push_cast at hl hu
  rcases h with h | h <;> linarith

/-- **C89**: within one phase the enthalpy gained on heating is the integral of the heat capacity, to 0.022 kJ/(kg K). -/
theorem C89_enthalpy_of_heating {a b : ℝ} (hab : a ≤ b) (ha : 275 ≤ a) (hb : b ≤ 1345) (h : b ≤ 365 ∨ 375 ≤ a) :
    |waterColumn 4 b - waterColumn 4 a - ∫ T in a..b, waterColumn 1 T| ≤ 22 / 1000 * (b - a) := by
  refine column_integral (by decide) (by decide) hab ha hb
    ((C37_continuous (by decide) (by decide)).mono (Icc_subset_Icc ha hb)) ?_
  intro n hn T h1 h2 hl hu
  obtain ⟨t0, t1⟩ := cell_t hl hu.le
  obtain ⟨p, q⟩ := heating_table n (List.mem_range.2 hn) (phase_cell h h1 h2 hl hu)
  have p := abs_cast p
  have q := abs_cast q
  rw [waterColumn_cell (by decide) (by decide) hn hl hu.le]
  generalize (T - (275 + 10 * (n : ℝ))) / 10 = t at t0 t1
  push_cast at p q ⊢
  rw [abs_le] at p q ⊢
  constructor <;> nlinarith

/-- **C89**: within one phase the entropy gained on heating is the integral of the heat capacity over the temperature, to
0.000317 kJ/(kg K) per kelvin. -/
theorem C89_entropy_of_heating {a b : ℝ} (hab : a ≤ b) (ha : 275 ≤ a) (hb : b ≤ 1345) (h : b ≤ 365 ∨ 375 ≤ a) :
    |waterColumn 5 b - waterColumn 5 a - ∫ T in a..b, waterColumn 1 T / T| ≤ 317 / 1000000 * (b - a) := by
  refine column_integral (f := fun T => waterColumn 1 T / T) (by decide) (by decide) hab ha hb
    (((C37_continuous (by decide) (by decide)).mono (Icc_subset_Icc ha hb)).div continuousOn_id
      fun x hx => ne_of_gt (by have := hx.1; exact (by linarith : (0 : ℝ) < x))) ?_
  intro n hn T h1 h2 hl hu
  obtain ⟨t0, t1⟩ := cell_t hl hu.le
  obtain ⟨p, q⟩ := entropy_table n (List.mem_range.2 hn) (phase_cell h h1 h2 hl hu)
  have p := abs_cast p
  have q := abs_cast q
  have hT : 275 ≤ T := ha.trans h1
  have hT0 : 0 < T := by linarith
  rw [waterColumn_cell (by decide) (by decide) hn hl hu.le]
  have eT : T = 275 + 10 * n + 10 * ((T - (275 + 10 * (n : ℝ))) / 10) := by ring
  push_cast at p q ⊢
  have key : |((gridCell 5 (n + 1) : ℝ) - gridCell 5 n) / 10 * T -
      (gridCell 1 n + (T - (275 + 10 * (n : ℝ))) / 10 * (gridCell 1 (n + 1) - gridCell 1 n))| ≤ 87 / 1000 := by
    generalize (T - (275 + 10 * (n : ℝ))) / 10 = t at t0 t1 eT ⊢
    rw [eT]
    rw [abs_le] at p q ⊢
    constructor <;> nlinarith
  generalize (gridCell 1 n + (T - (275 + 10 * (n : ℝ))) / 10 * (gridCell 1 (n + 1) - gridCell 1 n) : ℝ) = u at key
  have e : ((gridCell 5 (n + 1) : ℝ) - gridCell 5 n) / 10 - u / T =
      (((gridCell 5 (n + 1) : ℝ) - gridCell 5 n) / 10 * T - u) / T := by
    field_simp
  rw [e, abs_div, abs_of_pos hT0, div_le_iff₀ hT0]
  linarith

/-- **C89**: heating from liquid to steam also takes 2263 kJ/kg, whatever the two temperatures: the heat of vaporisation
as the table has it. -/
theorem C89_heat_of_vaporisation {a b : ℝ} (ha : 275 ≤ a) (ha' : a ≤ 365) (hb' : 375 ≤ b) (hb : b ≤ 1345) :
    |waterColumn 4 b - waterColumn 4 a - (∫ T in a..b, waterColumn 1 T) - 2263167 / 1000| ≤ 22 / 1000 * (b - a) := by
  have hc : ∀ x y : ℝ, 275 ≤ x → x ≤ y → y ≤ 1345 →
      IntervalIntegrable (waterColumn 1) MeasureTheory.volume x y := fun x y h1 h2 h3 =>
    ((C37_continuous (by decide) (by decide)).mono
      (by rw [uIcc_of_le h2]; exact Icc_subset_Icc h1 h3)).intervalIntegrable
  rw [← intervalIntegral.integral_add_adjacent_intervals (hc a 365 ha ha' (by norm_num))
      (hc 365 b (by norm_num) (by linarith) hb),
    ← intervalIntegral.integral_add_adjacent_intervals (hc 365 375 (by norm_num) (by norm_num) (by norm_num))
      (hc 375 b (by norm_num) hb' hb)]
  have l := C89_enthalpy_of_heating ha' ha (by norm_num) (Or.inl le_rfl)
  have r := C89_enthalpy_of_heating hb' (by norm_num) hb (Or.inr le_rfl)
  obtain ⟨p, q, u, v⟩ : gridCell 1 9 = 4207 / 1000 ∧ gridCell 1 (9 + 1) = 5179 / 2500 ∧ gridCell 4 9 = 9621 / 25 ∧
      gridCell 4 (9 + 1) = 13397 / 5 := by decide +kernel
  have m : ∫ T in (365 : ℝ)..375, waterColumn 1 T = 31393 / 1000 := by
    have e : ∀ T ∈ uIcc (365 : ℝ) 375, waterColumn 1 T = 4207 / 1000 + (T - 365) * (-(21354 / 100000)) := by
      intro T hT
      rw [uIcc_of_le (by norm_num)] at hT
      rw [waterColumn_cell (n := 9) (by decide) (by decide) (by decide) (by push_cast; linarith [hT.1])
        (by push_cast; linarith [hT.2]), p, q]
      push_cast
      ring
    rw [intervalIntegral.integral_congr e, intervalIntegral.integral_add (by simp)
      (Continuous.intervalIntegrable (by fun_prop) _ _), intervalIntegral.integral_mul_const,
      intervalIntegral.integral_sub (Continuous.intervalIntegrable (by fun_prop) _ _) (by simp), integral_id]
    simp
    norm_num
  have h365 : waterColumn 4 365 = 9621 / 25 := by
    rw [waterColumn_cell (n := 9) (by decide) (by decide) (by decide) (by norm_num) (by norm_num), u]
    norm_num
  have h375 : waterColumn 4 375 = 13397 / 5 := by
    rw [waterColumn_cell (n := 9) (by decide) (by decide) (by decide) (by norm_num) (by norm_num), u, v]
    norm_num
  rw [h365] at l
  rw [h375] at r
  rw [m]
  rw [abs_le] at l r ⊢
  constructor <;> linarith [l.1, l.2, r.1, r.2]

/-! ## On the object -/

/-- **C89** on the object returned by `get_water_properties(T)`: the attributes, in the units they carry, obey the same
relations.  Missing: density and specific volume between 365 K and 375 K, where their product is over 146. -/
theorem C89_object_partial {T : ℝ} (h1 : 275 ≤ T) (h2 : T ≤ 1345) : ∃ w, getWaterProperties T = .ok w ∧
    ∃ cp cv rho h u v : ℝ,
      w.cp = .multi ⟨.sub c!"Cp", cp, [⟨c!"J", 1⟩], [⟨c!"g", 1⟩, ⟨c!"K", 1⟩]⟩ ∧
      w.cv = .multi ⟨.sub c!"Cv", cv, [⟨c!"J", 1⟩], [⟨c!"g", 1⟩, ⟨c!"K", 1⟩]⟩ ∧
      w.density = .multi ⟨.sub c!"Density", rho, [⟨c!"kg", 1⟩], [⟨c!"m", 3⟩]⟩ ∧
      w.enthalpy = .multi ⟨.sub c!"Enthalpy", h, [⟨c!"kJ", 1⟩], [⟨c!"kg", 1⟩]⟩ ∧
      w.internalEnergy = .multi ⟨.sub c!"InternalEnergy", u, [⟨c!"kJ", 1⟩], [⟨c!"kg", 1⟩]⟩ ∧
      w.specificVolume = .multi ⟨.sub c!"SpecificVolume", v, [⟨c!"m", 3⟩], [⟨c!"kg", 1⟩]⟩ ∧
      0 < cv ∧ cv < cp ∧ |h - (u + 10132 / 100 * v)| ≤ 115 / 1000 ∧
      (T ≤ 365 ∨ 375 ≤ T → |rho * v - 1| ≤ 25 / 100000) ∧ (366 ≤ T → T ≤ 374 → 146 < rho * v) := by
  obtain ⟨w, hw, a, b, c, d, -, e, -, -, f⟩ := C38_attributes_partial h1 h2
  refine ⟨w, hw, _, _, _, _, _, _, a, b, c, d, e, f, (C89_heat_capacities h1 h2).1, (C89_heat_capacities h1 h2).2,
    C89_enthalpy h1 h2, ?_, fun l r => C89_density_volume_false l r⟩
  rintro (h | h)
  · exact C89_density_volume_partial (Or.inl ⟨h1, h⟩)
  · exact C89_density_volume_partial (Or.inr ⟨h, h2⟩)

/-- Heating from 300 K to 350 K and from 300 K to 400 K. -/
example : |waterColumn 4 350 - waterColumn 4 300 - ∫ T in (300 : ℝ)..350, waterColumn 1 T| ≤ 11 / 10 ∧
    |waterColumn 4 400 - waterColumn 4 300 - (∫ T in (300 : ℝ)..400, waterColumn 1 T) - 2263167 / 1000| ≤ 22 / 10 := by
  refine ⟨(C89_enthalpy_of_heating (by norm_num) (by norm_num) (by norm_num) (by norm_num)).trans (by norm_num),
    (C89_heat_of_vaporisation (by norm_num) (by norm_num) (by norm_num) (by norm_num)).trans (by norm_num)⟩

/-- The bounds are not idle: at 300 K water has a density near 1000 kg/m³, at 500 K steam weighs less than 0.5 kg/m³. -/
example : 990 < waterColumn 3 300 ∧ waterColumn 3 500 < 1 / 2 := by
  obtain ⟨a, b, c, d⟩ : 990 < gridCell 3 2 ∧ 990 < gridCell 3 (2 + 1) ∧ gridCell 3 22 < 1 / 2 ∧ gridCell 3 (22 + 1) < 1 / 2 := by
    decide +kernel
  rw [waterColumn_cell (n := 2) (by decide) (by decide) (by decide) (by norm_num) (by norm_num),
    waterColumn_cell (n := 22) (by decide) (by decide) (by decide) (by norm_num) (by norm_num)]
  have a := (Rat.cast_lt (K := ℝ)).2 a
  have b := (Rat.cast_lt (K := ℝ)).2 b
  have c := (Rat.cast_lt (K := ℝ)).2 c
  have d := (Rat.cast_lt (K := ℝ)).2 d
  push_cast at a b c d ⊢
  constructor <;> linarith

end Verif
