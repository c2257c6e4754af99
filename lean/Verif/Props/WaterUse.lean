import Verif.Props.WaterConsistent
import Verif.Props.Scales
import Verif.Utility.Dimensionless
import Verif.Props.Coefficients

/-!
# C103: the properties of water can be put into calculations

What a user does with the object returned by `get_water_properties(T)`: multiply enthalpy differences by a mass or a mass
flow, form Reynolds and Prandtl numbers and diffusivities, convert masses to volumes.  The physical formulas on the right
hand sides are written with the columns of the table (C37, C38): cp in J/(g K), density in kg/m³, enthalpy in kJ/kg, entropy
in J/(g K), thermal conductivity in W/(m K), viscosity in µPa s, specific volume in m³/kg.
-/

namespace Verif

open Set

/-! ## The columns -/

theorem positive_table : ∀ n ∈ List.range 108, 0 < gridCell 1 n ∧ 0 < gridCell 3 n ∧ 0 < gridCell 8 n ∧ 0 < gridCell 9 n ∧
    0 < gridCell 10 n := by decide +kernel

/-- A column lies between its values in the rows around the temperature. -/
theorem lerp_between {a b : ℚ} {t : ℝ} (h0 : 0 ≤ t) (h1 : t ≤ 1) :
    ((min a b : ℚ) : ℝ) ≤ a + t * (b - a) ∧ (a : ℝ) + t * (b - a) ≤ ((max a b : ℚ) : ℝ) := by
  rcases le_total a b with h | h
  · rw [min_eq_left h, max_eq_right h]
    have h : (a : ℝ) ≤ b := by exact_mod_cast h
    constructor <;> nlinarith
  · rw [min_eq_right h, max_eq_left h]
    have h : (b : ℝ) ≤ a := by exact_mod_cast h
    constructor <;> nlinarith

theorem column_pos {T : ℝ} (h1 : 275 ≤ T) (h2 : T ≤ 1345) : 0 < waterColumn 1 T ∧ 0 < waterColumn 3 T ∧
    0 < waterColumn 8 T ∧ 0 < waterColumn 9 T ∧ 0 < waterColumn 10 T := by
  obtain ⟨n, hn, t, h0, ht, -, hc⟩ := column_exists h1 h2
  have p := positive_table n (List.mem_range.2 (by omega))
  have q := positive_table (n + 1) (List.mem_range.2 (by omega))
  have key : ∀ i, i < 11 → i ≠ 7 → 0 < gridCell i n → 0 < gridCell i (n + 1) → 0 < waterColumn i T := by
    intro i hi h7 a b
    rw [hc i hi h7]
    refine lt_of_lt_of_le ?_ (lerp_between h0 ht).1
    exact_mod_cast lt_min a b
  exact ⟨key 1 (by decide) (by decide) p.1 q.1, key 3 (by decide) (by decide) p.2.1 q.2.1,
    key 8 (by decide) (by decide) p.2.2.1 q.2.2.1, key 9 (by decide) (by decide) p.2.2.2.1 q.2.2.2.1,
    key 10 (by decide) (by decide) p.2.2.2.2 q.2.2.2.2⟩

/-! ## Converting -/

theorem inUnit_sub {c : MCls} {q : ℚ} {top bot t b : UList} {unit : Sym}
    (h : convertMulti (K := ℚ) stdTables ⟨c, 1, top, bot⟩ unit = .ok ⟨c, q, t, b⟩) (v : ℝ) :
    inUnit unit (.ok (.multi ⟨c, v, top, bot⟩)) = .ok (.multi ⟨c, v * q, t, b⟩) := by
  simp only [inUnit, lift1, callConvert, convertMulti_cast h]

/-- The viscosity of water, converted to Pa·s. -/
theorem viscosity_SI (v : ℝ) : inUnit c!"Pa*s" (.ok (.multi ⟨.sub c!"DynamicViscosity", v, [⟨c!"uPa", 1⟩, ⟨c!"s", 1⟩], []⟩)) =
    .ok (.multi ⟨.sub c!"DynamicViscosity", v * ((1 / 1000000 : ℚ) : ℝ), [⟨c!"Pa", 1⟩, ⟨c!"s", 1⟩], []⟩) :=
  inUnit_sub (by decide +kernel) v

/-- The heat capacity, converted to J/(kg K). -/
theorem capacity_SI (v : ℝ) : inUnit c!"J/kg*K" (.ok (.multi ⟨.sub c!"Cp", v, [⟨c!"J", 1⟩], [⟨c!"g", 1⟩, ⟨c!"K", 1⟩]⟩)) =
    .ok (.multi ⟨.sub c!"Cp", v * ((1000 : ℚ) : ℝ), [⟨c!"J", 1⟩], [⟨c!"kg", 1⟩, ⟨c!"K", 1⟩]⟩) :=
  inUnit_sub (by decide +kernel) v

/-- The entropy, converted to kJ/(kg K). -/
theorem entropy_kilo (v : ℝ) : inUnit c!"kJ/kg*K" (.ok (.multi ⟨.sub c!"Entropy", v, [⟨c!"J", 1⟩], [⟨c!"g", 1⟩, ⟨c!"K", 1⟩]⟩)) =
    .ok (.multi ⟨.sub c!"Entropy", v * ((1 : ℚ) : ℝ), [⟨c!"kJ", 1⟩], [⟨c!"kg", 1⟩, ⟨c!"K", 1⟩]⟩) :=
  inUnit_sub (by decide +kernel) v

/-- The enthalpy, converted to J/kg. -/
theorem enthalpy_SI (c : MCls) (hc : c = .multi ∨ c = .sub c!"Enthalpy") (v : ℝ) :
    inUnit c!"J/kg" (.ok (.multi ⟨c, v, [⟨c!"kJ", 1⟩], [⟨c!"kg", 1⟩]⟩)) =
    .ok (.multi ⟨c, v * ((1000 : ℚ) : ℝ), [⟨c!"J", 1⟩], [⟨c!"kg", 1⟩]⟩) := by
  rcases hc with rfl | rfl <;> exact inUnit_sub (by decide +kernel) v

/-! ## Heat duties -/

/-- **C103**: a mass flow times the difference of two enthalpies is the heat flow in watt; within one phase it is the
integral of the heat capacity to 22 W per kg/s and kelvin. -/
theorem C103_heat_flow {a b : ℝ} (m : ℝ) (ha : 275 ≤ a) (hab : a ≤ b) (hb : b ≤ 1345) : ∃ w w' : Water,
    getWaterProperties a = .ok w ∧ getWaterProperties b = .ok w' ∧ ∃ Q : ℝ,
      qM c!"MassFlowRate" m c!"kg/s" * (.ok w'.enthalpy - .ok w.enthalpy) = qMulti Q c!"W" ∧
      (.ok w'.enthalpy - .ok w.enthalpy) * qM c!"MassFlowRate" m c!"kg/s" = qMulti Q c!"W" ∧
      Q = m * (1000 * (waterColumn 4 b - waterColumn 4 a)) ∧
      (b ≤ 365 ∨ 375 ≤ a → |Q - m * ∫ T in a..b, 1000 * waterColumn 1 T| ≤ |m| * (22 * (b - a))) := by
  obtain ⟨w, hw, -, -, -, h, -⟩ := C38_attributes_partial ha (hab.trans hb)
  obtain ⟨w', hw', -, -, -, h', -⟩ := C38_attributes_partial (ha.trans hab) hb
  refine ⟨w, w', hw, hw', m * (1000 * (waterColumn 4 b - waterColumn 4 a)), ?_, ?_, rfl, fun hp => ?_⟩
  · rw [h, h']
    units_eval []
    exact okMulti_congr (by push_cast; ring)
  · rw [h, h']
    units_eval []
    exact okMulti_congr (by push_cast; ring)
  · have := C89_enthalpy_of_heating hab ha hb hp
    rw [intervalIntegral.integral_const_mul, show m * (1000 * (waterColumn 4 b - waterColumn 4 a)) -
      m * (1000 * ∫ T in a..b, waterColumn 1 T) = m * (1000 * (waterColumn 4 b - waterColumn 4 a - ∫ T in a..b, waterColumn 1 T))
      by ring, abs_mul, abs_mul, abs_of_pos (by norm_num : (0 : ℝ) < 1000)]
    refine mul_le_mul_of_nonneg_left ?_ (abs_nonneg m)
    linarith

/-- **C103** is false for a mass: `Mass(m, "kg") * (h2 - h1)`, in either order, is a thousandth of the heat. -/
theorem C103_heat_false {a b : ℝ} (m : ℝ) (ha : 275 ≤ a) (ha' : a ≤ 1345) (hb : 275 ≤ b) (hb' : b ≤ 1345) : ∃ w w' : Water,
    getWaterProperties a = .ok w ∧ getWaterProperties b = .ok w' ∧ ∃ Q : ℝ,
      qU .mass m c!"kg" * (.ok w'.enthalpy - .ok w.enthalpy) = qU .unit Q c!"J" ∧
      (.ok w'.enthalpy - .ok w.enthalpy) * qU .mass m c!"kg" = qU .unit Q c!"J" ∧
      Q = m * (1000 * (waterColumn 4 b - waterColumn 4 a)) / 1000 := by
  obtain ⟨w, hw, -, -, -, h, -⟩ := C38_attributes_partial ha ha'
  obtain ⟨w', hw', -, -, -, h', -⟩ := C38_attributes_partial hb hb'
  refine ⟨w, w', hw, hw', _, ?_, ?_, rfl⟩
  · rw [h, h']
    units_eval []
    exact okUnit_congr (by ring)
  · rw [h, h']
    units_eval []
    exact okUnit_congr (by ring)

/-- What works for a mass: convert the difference to J/kg first. -/
theorem C103_heat_partial {a b : ℝ} (m : ℝ) (ha : 275 ≤ a) (ha' : a ≤ 1345) (hb : 275 ≤ b) (hb' : b ≤ 1345) : ∃ w w' : Water,
    getWaterProperties a = .ok w ∧ getWaterProperties b = .ok w' ∧
      qU .mass m c!"kg" * inUnit c!"J/kg" (.ok w'.enthalpy - .ok w.enthalpy) =
        qU .unit (m * (1000 * (waterColumn 4 b - waterColumn 4 a))) c!"J" := by
  obtain ⟨w, hw, -, -, -, h, -⟩ := C38_attributes_partial ha ha'
  obtain ⟨w', hw', -, -, -, h', -⟩ := C38_attributes_partial hb hb'
  refine ⟨w, w', hw, hw', ?_⟩
  rw [h, h', show (.ok (.multi ⟨.sub c!"Enthalpy", waterColumn 4 b, [⟨c!"kJ", 1⟩], [⟨c!"kg", 1⟩]⟩) : PyM (Val ℝ)) -
      .ok (.multi ⟨.sub c!"Enthalpy", waterColumn 4 a, [⟨c!"kJ", 1⟩], [⟨c!"kg", 1⟩]⟩) =
      .ok (.multi ⟨.multi, waterColumn 4 b - waterColumn 4 a, [⟨c!"kJ", 1⟩], [⟨c!"kg", 1⟩]⟩) by units_eval [],
    enthalpy_SI _ (Or.inl rfl)]
  units_eval []
  exact okUnit_congr (by push_cast; ring)

/-- Heating 2 kg/s from 300 K to 350 K takes about 418 kW. -/
example : ∃ w w' : Water, getWaterProperties 300 = .ok w ∧ getWaterProperties 350 = .ok w' ∧ ∃ Q : ℝ,
    qM c!"MassFlowRate" 2 c!"kg/s" * (.ok w'.enthalpy - .ok w.enthalpy) = qMulti Q c!"W" ∧ 417000 < Q ∧ Q < 419000 := by
  obtain ⟨w, w', h, h', Q, hQ, -, e, -⟩ := C103_heat_flow (a := 300) (b := 350) 2 (by norm_num) (by norm_num) (by norm_num)
  refine ⟨w, w', h, h', Q, hQ, ?_⟩
  obtain ⟨p, q, u, v⟩ : gridCell 4 2 = 91747 / 1000 ∧ gridCell 4 (2 + 1) = 13355 / 100 ∧ gridCell 4 7 = 30088 / 100 ∧
    gridCell 4 (7 + 1) = 34282 / 100 := by decide +kernel
  rw [e, waterColumn_cell (n := 7) (by decide) (by decide) (by decide) (by norm_num) (by norm_num),
    waterColumn_cell (n := 2) (by decide) (by decide) (by decide) (by norm_num) (by norm_num), p, q, u, v]
  norm_num

/-! ## Prandtl and Reynolds numbers -/

/-- **C103** is false for the Prandtl number: with the attributes as they are it is not a number at any temperature. -/
theorem C103_prandtl_false {T : ℝ} (h1 : 275 ≤ T) (h2 : T ≤ 1345) : ∃ w, getWaterProperties T = .ok w ∧
    prandtl (.ok w.viscosity) (.ok w.cp) (.ok w.thermalConductivity) =
      .ok (.multi ⟨.multi, waterColumn 9 T * waterColumn 1 T / waterColumn 8 T, [⟨c!"uPa", 1⟩, ⟨c!"m", 1⟩, ⟨c!"s", 2⟩],
        [⟨c!"g", 1⟩]⟩) := by
  obtain ⟨w, hw, c, -, -, -, -, -, k, mu, -⟩ := C38_attributes_partial h1 h2
  refine ⟨w, hw, ?_⟩
  rw [c, k, mu]
  have := (column_pos h1 h2).2.2.1.ne'
  units_eval [prandtl, this]

/-- Converting only the viscosity is not enough, since the library does not cancel grams against kilograms. -/
theorem C103_prandtl_grams {T : ℝ} (h1 : 275 ≤ T) (h2 : T ≤ 1345) : ∃ w, getWaterProperties T = .ok w ∧
    prandtl (inUnit c!"Pa*s" (.ok w.viscosity)) (.ok w.cp) (.ok w.thermalConductivity) =
      .ok (.multi ⟨.multi, waterColumn 9 T / 1000000 * waterColumn 1 T / waterColumn 8 T, [⟨c!"kg", 1⟩], [⟨c!"g", 1⟩]⟩) := by
  obtain ⟨w, hw, c, -, -, -, -, -, k, mu, -⟩ := C38_attributes_partial h1 h2
  refine ⟨w, hw, ?_⟩
  rw [c, k, mu, viscosity_SI]
  have := (column_pos h1 h2).2.2.1.ne'
  units_eval [prandtl, this]
  exact okMulti_congr (by push_cast; ring)

theorem prandtl_table : ∀ n ∈ List.range 107, n ≠ 9 →
    (if n < 9 then 19 / 10 else 87 / 100) * max (gridCell 8 n) (gridCell 8 (n + 1)) ≤
      min (gridCell 1 n) (gridCell 1 (n + 1)) * min (gridCell 9 n) (gridCell 9 (n + 1)) / 1000 ∧
    max (gridCell 1 n) (gridCell 1 (n + 1)) * max (gridCell 9 n) (gridCell 9 (n + 1)) / 1000 ≤
      (if n < 9 then 127 / 10 else 107 / 100) * min (gridCell 8 n) (gridCell 8 (n + 1)) := by decide +kernel

/-- The Prandtl number of the columns lies between 1.9 and 12.7 for liquid water, 0.87 and 1.07 for steam. -/
theorem prandtl_bounds {T : ℝ} (h : (275 ≤ T ∧ T ≤ 365) ∨ (375 ≤ T ∧ T ≤ 1345)) :
    (T ≤ 365 → 19 / 10 ≤ waterColumn 1 T * waterColumn 9 T / 1000 / waterColumn 8 T ∧
      waterColumn 1 T * waterColumn 9 T / 1000 / waterColumn 8 T ≤ 127 / 10) ∧
    (375 ≤ T → 87 / 100 ≤ waterColumn 1 T * waterColumn 9 T / 1000 / waterColumn 8 T ∧
      waterColumn 1 T * waterColumn 9 T / 1000 / waterColumn 8 T ≤ 107 / 100) := by
  obtain ⟨n, hn, h9, h10, t, h0, ht, hT, hc⟩ := column_exists_phase h
  obtain ⟨-, -, p8, -, -⟩ := column_pos (T := T) (by rcases h with h | h <;> linarith) (by rcases h with h | h <;> linarith)
  obtain ⟨a, b⟩ := prandtl_table n (List.mem_range.2 hn) h9
  have q := positive_table n (List.mem_range.2 (by omega))
  have q' := positive_table (n + 1) (List.mem_range.2 (by omega))
  have c1 := lerp_between (a := gridCell 1 n) (b := gridCell 1 (n + 1)) h0 ht
  have c8 := lerp_between (a := gridCell 8 n) (b := gridCell 8 (n + 1)) h0 ht
  have c9 := lerp_between (a := gridCell 9 n) (b := gridCell 9 (n + 1)) h0 ht
  rw [← hc 1 (by decide) (by decide)] at c1
  rw [← hc 8 (by decide) (by decide)] at c8
  rw [← hc 9 (by decide) (by decide)] at c9
  have m1 : (0 : ℝ) < ((min (gridCell 1 n) (gridCell 1 (n + 1)) : ℚ) : ℝ) := by exact_mod_cast lt_min q.1 q'.1
  have m9 : (0 : ℝ) < ((min (gridCell 9 n) (gridCell 9 (n + 1)) : ℚ) : ℝ) := by exact_mod_cast lt_min q.2.2.2.1 q'.2.2.2.1
  have lo := mul_le_mul c1.1 c9.1 m9.le (m1.le.trans c1.1)
  have hi := mul_le_mul c1.2 c9.2 (m9.le.trans c9.1) ((m1.le.trans c1.1).trans c1.2)
  have key : ∀ l u : ℚ, 0 < l → 0 < u → l * max (gridCell 8 n) (gridCell 8 (n + 1)) ≤
      min (gridCell 1 n) (gridCell 1 (n + 1)) * min (gridCell 9 n) (gridCell 9 (n + 1)) / 1000 →
      max (gridCell 1 n) (gridCell 1 (n + 1)) * max (gridCell 9 n) (gridCell 9 (n + 1)) / 1000 ≤
        u * min (gridCell 8 n) (gridCell 8 (n + 1)) →
      (l : ℝ) ≤ waterColumn 1 T * waterColumn 9 T / 1000 / waterColumn 8 T ∧
        waterColumn 1 T * waterColumn 9 T / 1000 / waterColumn 8 T ≤ u := by
    intro l u hl hu a b
    have hl : (0 : ℝ) < l := by exact_mod_cast hl
    have hu : (0 : ℝ) < u := by exact_mod_cast hu
    have a := (Rat.cast_le (K := ℝ)).2 a
    have b := (Rat.cast_le (K := ℝ)).2 b
    rw [Rat.cast_mul, Rat.cast_div, Rat.cast_mul] at a b
    rw [le_div_iff₀ p8, div_le_iff₀ p8]
    have e1 := mul_le_mul_of_nonneg_left c8.2 hl.le
    have e2 := mul_le_mul_of_nonneg_left c8.1 hu.le
    norm_num at a b
    constructor <;> norm_num at * <;> linarith
  constructor
  · intro hl
    have : n < 9 := by
      have : (n : ℝ) ≤ 9 := by linarith
      have : n ≤ 9 := by exact_mod_cast this
      omega
    rw [if_pos this] at a b
    have := key _ _ (by norm_num) (by norm_num) a b
    norm_num at this ⊢
    exact this
  · intro hs
    rw [if_neg (by have := h10 hs; omega)] at a b
    have := key _ _ (by norm_num) (by norm_num) a b
    norm_num at this ⊢
    exact this

/-- What works: with viscosity and heat capacity converted the Prandtl number is the plain number cp µ / k in SI units, and
it is between 1.9 and 12.7 for liquid water, 0.87 and 1.07 for steam. -/
theorem C103_prandtl_partial {T : ℝ} (h1 : 275 ≤ T) (h2 : T ≤ 1345) : ∃ w, getWaterProperties T = .ok w ∧ ∃ Pr : ℝ,
    prandtl (inUnit c!"Pa*s" (.ok w.viscosity)) (inUnit c!"J/kg*K" (.ok w.cp)) (.ok w.thermalConductivity) = pnum Pr ∧
    Pr = (waterColumn 9 T / 1000000) * (1000 * waterColumn 1 T) / waterColumn 8 T ∧
    (T ≤ 365 → 19 / 10 ≤ Pr ∧ Pr ≤ 127 / 10) ∧ (375 ≤ T → 87 / 100 ≤ Pr ∧ Pr ≤ 107 / 100) := by
  obtain ⟨w, hw, c, -, -, -, -, -, k, mu, -⟩ := C38_attributes_partial h1 h2
  have e : waterColumn 9 T / 1000000 * (1000 * waterColumn 1 T) / waterColumn 8 T =
    waterColumn 1 T * waterColumn 9 T / 1000 / waterColumn 8 T := by ring
  refine ⟨w, hw, _, ?_, rfl, fun h => ?_, fun h => ?_⟩
  · rw [c, k, mu, viscosity_SI, capacity_SI]
    have := (column_pos h1 h2).2.2.1.ne'
    units_eval [prandtl, this]
    exact okNum_congr (by push_cast; ring)
  · rw [e]; exact (prandtl_bounds (Or.inl ⟨h1, h⟩)).1 h
  · rw [e]; exact (prandtl_bounds (Or.inr ⟨h, h2⟩)).2 h

/-- Water at 300 K and steam at 500 K. -/
example : ∃ w w' : Water, getWaterProperties 300 = .ok w ∧ getWaterProperties 500 = .ok w' ∧ ∃ x y : ℝ,
    prandtl (inUnit c!"Pa*s" (.ok w.viscosity)) (inUnit c!"J/kg*K" (.ok w.cp)) (.ok w.thermalConductivity) = pnum x ∧
    prandtl (inUnit c!"Pa*s" (.ok w'.viscosity)) (inUnit c!"J/kg*K" (.ok w'.cp)) (.ok w'.thermalConductivity) = pnum y ∧
    19 / 10 ≤ x ∧ y ≤ 107 / 100 := by
  obtain ⟨w, h, x, ex, -, hx, -⟩ := C103_prandtl_partial (T := 300) (by norm_num) (by norm_num)
  obtain ⟨w', h', y, ey, -, -, hy⟩ := C103_prandtl_partial (T := 500) (by norm_num) (by norm_num)
  exact ⟨w, w', h, h', x, y, ex, ey, (hx (by norm_num)).1, (hy (by norm_num)).2⟩

/-- **C103** is false for the Reynolds number too. -/
theorem C103_reynolds_false {T : ℝ} (h1 : 275 ≤ T) (h2 : T ≤ 1345) (v L : ℝ) : ∃ w, getWaterProperties T = .ok w ∧
    reynolds (.ok w.density) (qM c!"Velocity" v c!"m/s") (qU .length L c!"m") (.ok w.viscosity) =
      .ok (.multi ⟨.multi, waterColumn 3 T * v * L / waterColumn 9 T, [⟨c!"Pa", 1⟩], [⟨c!"uPa", 1⟩]⟩) := by
  obtain ⟨w, hw, -, -, rho, -, -, -, -, mu, -⟩ := C38_attributes_partial h1 h2
  refine ⟨w, hw, ?_⟩
  rw [rho, mu]
  have := (column_pos h1 h2).2.2.2.1.ne'
  units_eval [reynolds, this]
  exact okMulti_congr (by ring)

/-- What works: with the viscosity converted it is the plain number ρ v L / µ in SI units. -/
theorem C103_reynolds_partial {T : ℝ} (h1 : 275 ≤ T) (h2 : T ≤ 1345) (v L : ℝ) : ∃ w, getWaterProperties T = .ok w ∧
    reynolds (.ok w.density) (qM c!"Velocity" v c!"m/s") (qU .length L c!"m") (inUnit c!"Pa*s" (.ok w.viscosity)) =
      pnum (waterColumn 3 T * v * L / (waterColumn 9 T / 1000000)) := by
  obtain ⟨w, hw, -, -, rho, -, -, -, -, mu, -⟩ := C38_attributes_partial h1 h2
  refine ⟨w, hw, ?_⟩
  rw [rho, mu, viscosity_SI]
  have := (column_pos h1 h2).2.2.2.1.ne'
  have h6 : ((1 / 1000000 : ℚ) : ℝ) ≠ 0 := by norm_num
  units_eval [reynolds, this, h6]
  exact okNum_congr (by push_cast; ring)

/-- The numbers in use: the heat transfer coefficient of water in turbulent flow through a pipe, from its own properties, is
0.023 Re^0.8 Pr^(1/3) k / d in W/(m² K), provided viscosity and heat capacity are converted. -/
theorem C103_pipe_partial {T v d : ℝ} (h1 : 275 ≤ T) (h2 : T ≤ 1345) (hv : 0 < v) (hd : 0 < d) : ∃ w,
    getWaterProperties T = .ok w ∧ ∃ Re Pr h : ℝ,
    htcPipeTurbulent
      (reynolds (.ok w.density) (qM c!"Velocity" v c!"m/s") (qU .length d c!"m") (inUnit c!"Pa*s" (.ok w.viscosity)))
      (prandtl (inUnit c!"Pa*s" (.ok w.viscosity)) (inUnit c!"J/kg*K" (.ok w.cp)) (.ok w.thermalConductivity))
      (qU .length d c!"m") (.ok w.thermalConductivity) (pnum 1) = qMulti h c!"W/m^2*K" ∧
    h = 23 / 1000 * Re ^ (4 / 5 : ℝ) * Pr ^ (1 / 3 : ℝ) * waterColumn 8 T / d ∧
    Re = waterColumn 3 T * v * d / (waterColumn 9 T / 1000000) ∧
    Pr = waterColumn 9 T / 1000000 * (1000 * waterColumn 1 T) / waterColumn 8 T := by
  obtain ⟨w, hw, -, -, -, -, -, -, k, -, -⟩ := C38_attributes_partial h1 h2
  obtain ⟨w', hw', Pr, ePr, hPr, -⟩ := C103_prandtl_partial h1 h2
  obtain ⟨w'', hw'', eRe⟩ := C103_reynolds_partial h1 h2 v d
  obtain rfl : w = w' := by rw [hw] at hw'; exact Except.ok.inj hw'
  obtain rfl : w = w'' := by rw [hw] at hw''; exact Except.ok.inj hw''
  obtain ⟨p1, p3, p8, p9, -⟩ := column_pos h1 h2
  have pPr : 0 < Pr := by rw [hPr]; positivity
  have pRe : 0 < waterColumn 3 T * v * d / (waterColumn 9 T / 1000000) := by positivity
  refine ⟨w, hw, _, Pr, _, ?_, rfl, rfl, hPr⟩
  rw [ePr, eRe, k, htcPipeTurbulent, pnum_pow pRe, pnum_pow pPr, pnum_mul, pnum_mul, pnum_mul]
  have := hd.ne'
  units_eval [this]
  exact okMulti_congr (by norm_num)

/-! ## Diffusivities -/

/-- **C103** is false for the thermal diffusivity k / (ρ cp): a factor g/kg is left in the unit. -/
theorem C103_diffusivity_false {T : ℝ} (h1 : 275 ≤ T) (h2 : T ≤ 1345) : ∃ w, getWaterProperties T = .ok w ∧
    (.ok w.thermalConductivity / (.ok w.density * .ok w.cp) : PyM (Val ℝ)) = .ok (.multi ⟨.multi,
      waterColumn 8 T / (waterColumn 3 T * waterColumn 1 T), [⟨c!"g", 1⟩, ⟨c!"m", 2⟩], [⟨c!"kg", 1⟩, ⟨c!"s", 1⟩]⟩) := by
  obtain ⟨w, hw, c, -, rho, -, -, -, k, -, -⟩ := C38_attributes_partial h1 h2
  refine ⟨w, hw, ?_⟩
  rw [c, rho, k]
  have p := (column_pos h1 h2).1.ne'
  have q := (column_pos h1 h2).2.1.ne'
  units_eval [p, q]

/-- What works: with the heat capacity converted it is k / (ρ cp) in m²/s. -/
theorem C103_diffusivity_partial {T : ℝ} (h1 : 275 ≤ T) (h2 : T ≤ 1345) : ∃ w, getWaterProperties T = .ok w ∧
    .ok w.thermalConductivity / (.ok w.density * inUnit c!"J/kg*K" (.ok w.cp)) =
      qMulti (waterColumn 8 T / (waterColumn 3 T * (1000 * waterColumn 1 T))) c!"m^2/s" := by
  obtain ⟨w, hw, c, -, rho, -, -, -, k, -, -⟩ := C38_attributes_partial h1 h2
  refine ⟨w, hw, ?_⟩
  rw [c, rho, k, capacity_SI]
  have p := (column_pos h1 h2).1.ne'
  have q := (column_pos h1 h2).2.1.ne'
  have h3 : ((1000 : ℚ) : ℝ) ≠ 0 := by norm_num
  units_eval [p, q, h3]
  exact okMulti_congr (by push_cast; ring)

/-- The kinematic viscosity µ / ρ in m²/s, with the viscosity converted. -/
theorem C103_kinematic_partial {T : ℝ} (h1 : 275 ≤ T) (h2 : T ≤ 1345) : ∃ w, getWaterProperties T = .ok w ∧
    inUnit c!"Pa*s" (.ok w.viscosity) / .ok w.density = qMulti (waterColumn 9 T / 1000000 / waterColumn 3 T) c!"m^2/s" := by
  obtain ⟨w, hw, -, -, rho, -, -, -, -, mu, -⟩ := C38_attributes_partial h1 h2
  refine ⟨w, hw, ?_⟩
  rw [rho, mu, viscosity_SI]
  have q := (column_pos h1 h2).2.1.ne'
  units_eval [q]
  exact okMulti_congr (by push_cast; ring)

/-! ## Volumes, Gibbs energy -/

/-- **C103**: the volume of a mass, from the density and from the specific volume; away from the boiling point the two agree
to 0.025 %. -/
theorem C103_volume {T : ℝ} (m : ℝ) (h1 : 275 ≤ T) (h2 : T ≤ 1345) : ∃ w, getWaterProperties T = .ok w ∧ ∃ V V' : ℝ,
    qU .mass m c!"kg" / .ok w.density = .ok (.unit ⟨.unit, V, c!"m", 3⟩) ∧
    qU .mass m c!"kg" * .ok w.specificVolume = .ok (.unit ⟨.unit, V', c!"m", 3⟩) ∧
    V = m / waterColumn 3 T ∧ V' = m * waterColumn 10 T ∧
    (T ≤ 365 ∨ 375 ≤ T → |V' - V| ≤ 25 / 100000 * |V|) := by
  obtain ⟨w, hw, -, -, rho, -, -, -, -, -, v⟩ := C38_attributes_partial h1 h2
  have q := (column_pos h1 h2).2.1
  have q' := q.ne'
  refine ⟨w, hw, _, _, ?_, ?_, rfl, rfl, fun h => ?_⟩
  · rw [rho]
    units_eval [q']
  · rw [v]
    units_eval []
  · have d := C89_density_volume_partial (T := T) (by rcases h with h | h; exacts [Or.inl ⟨h1, h⟩, Or.inr ⟨h, h2⟩])
    rw [show m * waterColumn 10 T - m / waterColumn 3 T = (waterColumn 3 T * waterColumn 10 T - 1) * (m / waterColumn 3 T) by
      field_simp, abs_mul]
    exact mul_le_mul_of_nonneg_right d (abs_nonneg _)

/-- **C103** is false for the Gibbs energy: `h - T * s` raises TypeError at every temperature, also after converting the
entropy to the kJ and kg of the enthalpy, because the product is reduced to m²/s². -/
theorem C103_gibbs_false {T : ℝ} (h1 : 275 ≤ T) (h2 : T ≤ 1345) : ∃ w, getWaterProperties T = .ok w ∧
    .ok w.enthalpy - qU .temperature T c!"K" * .ok w.entropy = .error .typeError ∧
    .ok w.enthalpy - qU .temperature T c!"K" * inUnit c!"kJ/kg*K" (.ok w.entropy) = .error .typeError := by
  obtain ⟨w, hw, -, -, -, h, s, -⟩ := C38_attributes_partial h1 h2
  refine ⟨w, hw, ?_, ?_⟩
  · rw [h, s]
    units_eval []
  · rw [h, s, entropy_kilo]
    units_eval []

/-- What works: convert the product back to the unit of the enthalpy. -/
theorem C103_gibbs_partial {T : ℝ} (h1 : 275 ≤ T) (h2 : T ≤ 1345) : ∃ w, getWaterProperties T = .ok w ∧
    .ok w.enthalpy - inUnit c!"kJ/kg" (qU .temperature T c!"K" * .ok w.entropy) =
      qMulti (waterColumn 4 T - T * waterColumn 5 T) c!"kJ/kg" := by
  obtain ⟨w, hw, -, -, -, h, s, -⟩ := C38_attributes_partial h1 h2
  refine ⟨w, hw, ?_⟩
  rw [h, s, show (qU .temperature T c!"K" * .ok (.multi ⟨.sub c!"Entropy", waterColumn 5 T, [⟨c!"J", 1⟩],
      [⟨c!"g", 1⟩, ⟨c!"K", 1⟩]⟩) : PyM (Val ℝ)) = .ok (.multi ⟨.multi, T * waterColumn 5 T, [⟨c!"J", 1⟩], [⟨c!"g", 1⟩]⟩) by
      units_eval [],
    inUnit_multi (q := 1) (t := [⟨c!"kJ", 1⟩]) (b := [⟨c!"kg", 1⟩]) (by decide +kernel)]
  units_eval []

end Verif
