import Verif.Lemmas.WaterFloat

/-!
# C101: the properties of water in double precision
-/

namespace Verif

open WaterFloat

/-! ## C101 -/

variable {r : ℝ → ℝ}

/-- The rows chosen in double precision are those that exact arithmetic chooses. -/
theorem C101_rows (hr : DoubleRounding r) {T : ℝ} (hT : IsDouble T) (h1 : 275 ≤ T) (h2 : T ≤ 1345) :
    ⌊r (r (T - r 275) / r 10)⌋ = ⌊(T - 275) / 10⌋ ∧ ⌈r (r (T - r 275) / r 10)⌉ = ⌈(T - 275) / 10⌉ := by
  obtain ⟨n, hn, hl, hu⟩ := waterCell_exists h1 h2
  rcases eq_or_lt_of_le hl with rfl | hl
  · rw [index_grid hr (by omega), add_sub_cancel_left, mul_div_cancel_left₀ _ (by norm_num)]
    exact ⟨rfl, rfl⟩
  rcases eq_or_lt_of_le hu with rfl | hu
  · have e : (285 : ℝ) + 10 * n = 275 + 10 * ((n + 1 : ℕ) : ℝ) := by push_cast; ring
    rw [e, index_grid hr (by omega), add_sub_cancel_left, mul_div_cancel_left₀ _ (by norm_num)]
    exact ⟨rfl, rfl⟩
  · obtain ⟨a, b⟩ := index_cell hr hT h1 h2 hl hu
    obtain ⟨c, d⟩ := floor_cell hl hu
    rw [a, b, c, d]
    exact ⟨rfl, rfl⟩

/-- Between neighbouring rows of the grid, both included, every number is the linear interpolation up to `2^-50` of the
larger entry, and the phase is exactly the one that exact arithmetic reports. -/
theorem C101_cell (hr : DoubleRounding r) {n : ℕ} (hn : n < 107) {r1 r2 : List WCell}
    (h1 : ((275 + 10 * (n : ℚ)), r1) ∈ waterTable) (h2 : ((285 + 10 * (n : ℚ)), r2) ∈ waterTable) {T : ℝ} (hT : IsDouble T)
    (hl : 275 + 10 * (n : ℝ) ≤ T) (hu : T ≤ 285 + 10 * (n : ℝ)) :
    ∃ l, waterDataFl r T = .ok (.num T :: l) ∧ NearRow ((T - (275 + 10 * n)) / 10) r1 r2 l := by
  have hp := pairs_grid hn h1 h2
  have hn' : (n : ℝ) ≤ 106 := by exact_mod_cast Nat.lt_succ_iff.1 hn
  have h0 : (0 : ℝ) ≤ n := Nat.cast_nonneg n
  rcases eq_or_lt_of_le hl with rfl | hl
  · refine ⟨_, grid_data hr (by omega) h1, ?_⟩
    rw [sub_self, zero_div]
    exact (rows_near hr _ _ _ hp).1
  rcases eq_or_lt_of_le hu with rfl | hu
  · have e : (285 : ℝ) + 10 * n = 275 + 10 * ((n + 1 : ℕ) : ℝ) := by push_cast; ring
    have e' : (285 : ℚ) + 10 * n = 275 + 10 * ((n + 1 : ℕ) : ℚ) := by push_cast; ring
    rw [e'] at h2
    have := grid_data hr (by omega) h2
    rw [← e] at this
    refine ⟨_, this, ?_⟩
    rw [show ((285 : ℝ) + 10 * n - (275 + 10 * n)) / 10 = 1 by ring]
    exact (rows_near hr _ _ _ hp).2
  · have g1 : (275 : ℝ) ≤ T := by linarith
    have g2 : T ≤ 1345 := by linarith
    obtain ⟨l, hl', hl''⟩ := row_near (fun k c d h => cell_near hr hT g1 g2 hn hl hu h) _ _ _ hp
    refine ⟨l, ?_, hl''⟩
    obtain ⟨a, b⟩ := index_cell hr hT g1 g2 hl hu
    have hr1 := waterRow_of_mem (k := (n : ℤ) * 10 + 275) h1 (by push_cast; ring)
    have hr2 := waterRow_of_mem (k := ((n : ℤ) + 1) * 10 + 275) h2 (by push_cast; ring)
    unfold waterDataFl
    rw [if_pos ⟨g1, g2⟩]
    simp only [a, b, getPropertyDataFl, hr1, hr2, hl']

/-- In double precision as in exact arithmetic the exception is raised exactly outside the range, and inside it nothing
else is raised. -/
theorem C101_range (hr : DoubleRounding r) {T : ℝ} (hT : IsDouble T) :
    (waterDataFl r T = .error .outOfRange ↔ T < 275 ∨ 1345 < T) ∧
    ((∃ l, waterDataFl r T = .ok l) ↔ 275 ≤ T ∧ T ≤ 1345) := by
  by_cases h : 275 ≤ T ∧ T ≤ 1345
  · obtain ⟨n, hn, hl, hu⟩ := waterCell_exists h.1 h.2
    obtain ⟨r1, h1, -⟩ := waterRow_grid (n := n) (by omega)
    obtain ⟨r2, h2, -⟩ := waterRow_grid' hn
    obtain ⟨l, e, -⟩ := C101_cell hr hn h1 h2 hT hl hu
    rw [e]
    refine ⟨⟨fun h => (by cases h), fun h' => ?_⟩, ⟨fun _ => h, fun _ => ⟨_, rfl⟩⟩⟩
    rcases h' with h' | h' <;> linarith [h.1, h.2]
  · have hd : waterDataFl r T = .error .outOfRange := by
      unfold waterDataFl
      rw [if_neg (by simpa [ge_iff_le] using h)]
    rw [hd]
    refine ⟨⟨fun _ => ?_, fun _ => rfl⟩, ⟨fun ⟨l, h⟩ => (by cases h), fun h' => absurd h' h⟩⟩
    by_contra hc
    push Not at hc
    exact h hc

/-- On the grid the entries of the table are returned, as they are read. -/
theorem C101_grid (hr : DoubleRounding r) {n : ℕ} (hn : n < 108) {row : List WCell}
    (h : ((275 + 10 * (n : ℚ)), row) ∈ waterTable) :
    waterDataFl r (275 + 10 * (n : ℝ)) = .ok (.num (275 + 10 * (n : ℝ)) :: row.map (WCell.toFloat r)) :=
  grid_data hr hn h

/-- Every number agrees with the exact interpolation to eleven digits. -/
theorem C101_relative (hr : DoubleRounding r) {T : ℝ} (hT : IsDouble T) (h1 : 275 ≤ T) (h2 : T ≤ 1345) :
    ∃ l, waterDataFl r T = .ok (.num T :: l) ∧ l.length = 11 ∧ ∀ i < 11, i ≠ 7 →
      ∃ x, l[i]? = some (.num x) ∧ |x - waterColumn i T| ≤ 2 / 10 ^ 12 * waterColumn i T := by
  obtain ⟨n, hn, hl, hu⟩ := waterCell_exists h1 h2
  obtain ⟨r1, m1, s1⟩ := waterRow_grid (n := n) (by omega)
  obtain ⟨r2, m2, s2⟩ := waterRow_grid' hn
  obtain ⟨l, e, near⟩ := C101_cell hr hn m1 m2 hT hl hu
  obtain ⟨len, get⟩ := near.get
  refine ⟨l, e, ?_, fun i hi h7 => ?_⟩
  · obtain ⟨a, b, c, d, e, f, g, p, x, y, z, rfl⟩ := waterShape_cases s1
    exact len
  · obtain ⟨p1, p2, q1, q2⟩ := neighbours n (List.mem_range.2 hn) i (List.mem_range.2 hi) h7
    have e1 := waterRow_of_mem (k := (n : ℤ) * 10 + 275) m1 (by push_cast; ring)
    have e2 := waterRow_of_mem (k := ((n + 1 : ℕ) : ℤ) * 10 + 275) m2 (by push_cast; ring)
    have c1 : r1[i]? = some (.num (gridCell i n)) := by
      obtain ⟨a, b, c, d, e, f, g, p, x, y, z, rfl⟩ := waterShape_cases s1
      simp only [gridCell, e1]
      interval_cases i <;> first | exact absurd rfl h7 | rfl
    have c2 : r2[i]? = some (.num (gridCell i (n + 1))) := by
      obtain ⟨a, b, c, d, e, f, g, p, x, y, z, rfl⟩ := waterShape_cases s2
      simp only [gridCell, e2]
      interval_cases i <;> first | exact absurd rfl h7 | rfl
    obtain ⟨v, hv, hv'⟩ := get i _ _ c1 c2
    match v, hv' with
    | .str _, h => exact h.elim
    | .num x, hx =>
      refine ⟨x, hv, le_trans ?_ (?_ : 2⁻¹ ^ 50 * max (gridCell i n : ℝ) (gridCell i (n + 1)) ≤ _)⟩
      · rw [waterColumn_cell hi h7 hn hl hu]
        exact hx
      · rw [waterColumn_cell hi h7 hn hl hu]
        obtain ⟨t0, t1⟩ := cell_t hl hu
        generalize (T - (275 + 10 * (n : ℝ))) / 10 = t at *
        have p1 : (0 : ℝ) < gridCell i n := by exact_mod_cast p1
        have p2 : (0 : ℝ) < gridCell i (n + 1) := by exact_mod_cast p2
        have q1 : (gridCell i n : ℝ) ≤ 1700 * gridCell i (n + 1) := by exact_mod_cast q1
        have q2 : (gridCell i (n + 1) : ℝ) ≤ 1700 * gridCell i n := by exact_mod_cast q2
        generalize (gridCell i n : ℝ) = a at *
        generalize (gridCell i (n + 1) : ℝ) = b at *
        have hm : max a b ≤ 1700 * (a + t * (b - a)) := by
          rcases le_total a b with h | h
          · rw [max_eq_right h]; nlinarith
          · rw [max_eq_left h]; nlinarith
        have h50 : (2⁻¹ : ℝ) ^ 50 * 1700 ≤ 2 / 10 ^ 12 := by norm_num
        have := mul_le_mul_of_nonneg_left hm (show (0 : ℝ) ≤ 2⁻¹ ^ 50 by positivity)
        have pos : 0 ≤ a + t * (b - a) := by nlinarith
        have := mul_le_mul_of_nonneg_right h50 pos
        linarith

/-- The phase reported in double precision is the one reported in exact arithmetic. -/
theorem C101_phase (hr : DoubleRounding r) {T : ℝ} (hT : IsDouble T) (h1 : 275 ≤ T) (h2 : T ≤ 1345) :
    ∃ l m s, waterDataFl r T = .ok l ∧ waterData T = .ok m ∧ l[8]? = some (.str s) ∧ m[8]? = some (.str s) := by
  obtain ⟨n, hn, hl, hu⟩ := waterCell_exists h1 h2
  obtain ⟨r1, m1, s1⟩ := waterRow_grid (n := n) (by omega)
  obtain ⟨r2, m2, s2⟩ := waterRow_grid' hn
  obtain ⟨l, hFl, near⟩ := C101_cell hr hn m1 m2 hT hl hu
  have hEx := C37_cell hn m1 m2 hl hu
  obtain ⟨a, b, c, d, e, f, g, p, x, y, z, rfl⟩ := waterShape_cases s1
  obtain ⟨a', b', c', d', e', f', g', p', x', y', z', rfl⟩ := waterShape_cases s2
  obtain ⟨v, hv, hv'⟩ := near.get.2 7 _ _ rfl rfl
  match v, hv' with
  | .num _, h => exact h.elim
  | .str s, h =>
    refine ⟨_, _, s, hFl, hEx, by simpa using hv, ?_⟩
    simp only [List.zipWith, lerpCell]
    rcases eq_or_ne ((T - (275 + 10 * (n : ℝ))) / 10) 0 with ht | ht
    · rw [if_pos ht, h.1 ht]; rfl
    · rw [if_neg ht, h.2 ht]; rfl

/-- The object has the attributes and units of `C38_attributes_partial`, with the numbers computed in double precision, and
the same exchange of temperature and pressure. -/
theorem C101_object (hr : DoubleRounding r) {T : ℝ} (hT : IsDouble T) (h1 : 275 ≤ T) (h2 : T ≤ 1345) :
    ∃ w, getWaterPropertiesFl r T = .ok w ∧
      w.temperature = .unit ⟨.temperature, waterColumnFl r 0 T, c!"K", 1⟩ ∧ w.pressure = .unit ⟨.pressure, T, c!"MPa", 1⟩ ∧
      w.cp = .multi ⟨.sub c!"Cp", waterColumnFl r 1 T, [⟨c!"J", 1⟩], [⟨c!"g", 1⟩, ⟨c!"K", 1⟩]⟩ ∧
      w.cv = .multi ⟨.sub c!"Cv", waterColumnFl r 2 T, [⟨c!"J", 1⟩], [⟨c!"g", 1⟩, ⟨c!"K", 1⟩]⟩ ∧
      w.density = .multi ⟨.sub c!"Density", waterColumnFl r 3 T, [⟨c!"kg", 1⟩], [⟨c!"m", 3⟩]⟩ ∧
      w.enthalpy = .multi ⟨.sub c!"Enthalpy", waterColumnFl r 4 T, [⟨c!"kJ", 1⟩], [⟨c!"kg", 1⟩]⟩ ∧
      w.entropy = .multi ⟨.sub c!"Entropy", waterColumnFl r 5 T, [⟨c!"J", 1⟩], [⟨c!"g", 1⟩, ⟨c!"K", 1⟩]⟩ ∧
      w.internalEnergy = .multi ⟨.sub c!"InternalEnergy", waterColumnFl r 6 T, [⟨c!"kJ", 1⟩], [⟨c!"kg", 1⟩]⟩ ∧
      w.thermalConductivity =
        .multi ⟨.sub c!"ThermalConductivity", waterColumnFl r 8 T, [⟨c!"W", 1⟩], [⟨c!"m", 1⟩, ⟨c!"K", 1⟩]⟩ ∧
      w.viscosity = .multi ⟨.sub c!"DynamicViscosity", waterColumnFl r 9 T, [⟨c!"uPa", 1⟩, ⟨c!"s", 1⟩], []⟩ ∧
      w.specificVolume = .multi ⟨.sub c!"SpecificVolume", waterColumnFl r 10 T, [⟨c!"m", 3⟩], [⟨c!"kg", 1⟩]⟩ := by
  obtain ⟨l, e, len, num⟩ := C101_relative hr hT h1 h2
  obtain ⟨l', -, s, e', -, hs, -⟩ := C101_phase hr hT h1 h2
  rw [e] at e'
  cases e'
  have get (i : ℕ) (hi : i < 11) (h7 : i ≠ 7) : l[i]? = some (.num (waterColumnFl r i T)) := by
    obtain ⟨x, hx, -⟩ := num i hi h7
    simp [waterColumnFl, e, hx]
  have hl : l = [.num (waterColumnFl r 0 T), .num (waterColumnFl r 1 T), .num (waterColumnFl r 2 T),
      .num (waterColumnFl r 3 T), .num (waterColumnFl r 4 T), .num (waterColumnFl r 5 T), .num (waterColumnFl r 6 T), .str s,
      .num (waterColumnFl r 8 T), .num (waterColumnFl r 9 T), .num (waterColumnFl r 10 T)] := by
    refine List.ext_getElem? fun i => ?_
    rcases Nat.lt_or_ge i 11 with hi | hi
    · by_cases h7 : i = 7
      · subst h7; simpa using hs
      · rw [get i hi h7]
        interval_cases i <;> first | exact absurd rfl h7 | rfl
    · rw [List.getElem?_eq_none (by omega), List.getElem?_eq_none (by simpa using hi)]
  unfold getWaterPropertiesFl
  simp only [e, hl, waterInit_eval]
  exact ⟨_, rfl, rfl, rfl, rfl, rfl, rfl, rfl, rfl, rfl, rfl, rfl, rfl⟩

/-- The object is built exactly inside the range; outside it the same exception is raised as for the list. -/
theorem C101_object_range (hr : DoubleRounding r) {T : ℝ} (hT : IsDouble T) :
    (getWaterPropertiesFl r T = .error .outOfRange ↔ T < 275 ∨ 1345 < T) ∧
    ((∃ w, getWaterPropertiesFl r T = .ok w) ↔ 275 ≤ T ∧ T ≤ 1345) := by
  by_cases h : 275 ≤ T ∧ T ≤ 1345
  · obtain ⟨w, e, -⟩ := C101_object hr hT h.1 h.2
    rw [e]
    refine ⟨⟨fun h => (by cases h), fun h' => ?_⟩, ⟨fun _ => h, fun _ => ⟨_, rfl⟩⟩⟩
    rcases h' with h' | h' <;> linarith [h.1, h.2]
  · have h' : T < 275 ∨ 1345 < T := by
      by_contra hc
      push Not at hc
      exact h hc
    have e : getWaterPropertiesFl r T = .error .outOfRange := by
      unfold getWaterPropertiesFl
      rw [(C101_range hr hT).1.2 h']
    rw [e]
    exact ⟨⟨fun _ => h', fun _ => rfl⟩, ⟨fun ⟨w, h⟩ => (by cases h), fun h' => absurd h' h⟩⟩

/-- Without rounding the model in floating point is the model in exact arithmetic. -/
theorem C101_exact (T : ℝ) : waterDataFl id T = waterData T := by
  have c1 (k : Sym) (lo up : ℤ) (y1 y2 : WCell) : interpolateFl id T lo up k y1 y2 = interpolate T lo up k y1 y2 := by
    unfold interpolateFl interpolate
    have : WCell.sameFloat id y1 y2 ↔ y1 = y2 := by
      cases y1 <;> cases y2 <;> simp [WCell.sameFloat]
    by_cases h : y1 = y2
    · rw [if_pos h, if_pos (this.2 h)]
      cases y1 <;> rfl
    · rw [if_neg h, if_neg (mt this.1 h)]
      cases y1 <;> cases y2 <;> simp [WCell.toFloat, WCell.toVal]
      rfl
  have c2 (lo up : ℤ) : ∀ ks r1 r2, interpolateAllFl id T lo up ks r1 r2 = interpolateAll T lo up ks r1 r2 := by
    intro ks
    induction ks with
    | nil => intro r1 r2; rfl
    | cons k ks ih =>
      intro r1 r2
      match r1, r2 with
      | [], _ => rfl
      | _ :: _, [] => rfl
      | c :: r1, d :: r2 => simp only [interpolateAllFl, interpolateAll, c1, ih]; rfl
  simp only [waterDataFl, waterData, getPropertyDataFl, getPropertyData, c2, id]
  rfl

/-! ## Order -/

/-- Even in double precision every number lies between the numbers of the neighbouring rows. -/
theorem C101_between (hr : DoubleRounding r) {i n : ℕ} (hi : i < 11) (h7 : i ≠ 7) (hn : n < 107) {T : ℝ} (hT : IsDouble T)
    (hl : 275 + 10 * (n : ℝ) ≤ T) (hu : T ≤ 285 + 10 * (n : ℝ)) :
    min (r (gridCell i n)) (r (gridCell i (n + 1))) ≤ waterColumnFl r i T ∧
      waterColumnFl r i T ≤ max (r (gridCell i n)) (r (gridCell i (n + 1))) := by
  have hn' : (n : ℝ) ≤ 106 := by exact_mod_cast Nat.lt_succ_iff.1 hn
  have h0 : (0 : ℝ) ≤ n := Nat.cast_nonneg n
  rcases eq_or_lt_of_le hl with rfl | hl
  · rw [column_grid hr hi h7 (by omega)]
    exact ⟨min_le_left _ _, le_max_left _ _⟩
  rcases eq_or_lt_of_le hu with rfl | hu
  · have e : (285 : ℝ) + 10 * n = 275 + 10 * ((n + 1 : ℕ) : ℝ) := by push_cast; ring
    rw [e, column_grid hr hi h7 (by omega)]
    exact ⟨min_le_right _ _, le_max_right _ _⟩
  · rw [column_cell hr hi h7 hn hT hl hu]
    split_ifs with h
    · rw [← h, min_self, max_self]; exact ⟨le_rfl, le_rfl⟩
    · exact stays hr (hr.double _) (hr.double _) (by linarith)
        (below_ten hT (by linarith) hu)

/-- Within a cell of the grid the computed numbers rise or fall with the temperature as the rows do. -/
theorem C101_cell_monotone (hr : DoubleRounding r) {i n : ℕ} (hi : i < 11) (h7 : i ≠ 7) (hn : n < 107) {T T' : ℝ}
    (hT : IsDouble T) (hT' : IsDouble T') (hl : 275 + 10 * (n : ℝ) ≤ T) (h : T ≤ T') (hu : T' ≤ 285 + 10 * (n : ℝ)) :
    (gridCell i n ≤ gridCell i (n + 1) → waterColumnFl r i T ≤ waterColumnFl r i T') ∧
    (gridCell i (n + 1) ≤ gridCell i n → waterColumnFl r i T' ≤ waterColumnFl r i T) := by
  have bT := C101_between hr hi h7 hn hT hl (h.trans hu)
  have bT' := C101_between hr hi h7 hn hT' (hl.trans h) hu
  have z : r 0 = 0 := by exact_mod_cast fixes_int hr (n := 0) (by norm_num)
  have cast_le {x y : ℚ} (h : x ≤ y) : r x ≤ r y := hr.mono (by exact_mod_cast h)
  rcases eq_or_lt_of_le hl with rfl | hl
  · rw [column_grid hr hi h7 (by omega)] at bT ⊢
    refine ⟨fun g => ?_, fun g => ?_⟩
    · have := bT'.1; rwa [min_eq_left (cast_le g)] at this
    · have := bT'.2; rwa [max_eq_left (cast_le g)] at this
  rcases eq_or_lt_of_le hu with rfl | hu
  · have e : (285 : ℝ) + 10 * n = 275 + 10 * ((n + 1 : ℕ) : ℝ) := by push_cast; ring
    rw [e, column_grid hr hi h7 (by omega)]
    refine ⟨fun g => ?_, fun g => ?_⟩
    · have := bT.2; rwa [max_eq_right (cast_le g)] at this
    · have := bT.1; rwa [min_eq_right (cast_le g)] at this
  · rw [column_cell hr hi h7 hn hT hl (h.trans_lt hu), column_cell hr hi h7 hn hT' (hl.trans_le h) hu]
    split_ifs with hs
    · exact ⟨fun _ => le_rfl, fun _ => le_rfl⟩
    · refine ⟨fun g => ?_, fun g => ?_⟩
      · have g := cast_le g
        have s0 : 0 ≤ r (r (gridCell i (n + 1)) - r (gridCell i n)) := z.symm.le.trans <| hr.mono (by linarith)
        have s1 : 0 ≤ r (r (r (gridCell i (n + 1)) - r (gridCell i n)) / 10) := z.symm.le.trans <| hr.mono (by positivity)
        refine hr.mono (add_le_add_right (hr.mono ?_) _)
        exact mul_le_mul_of_nonneg_right (by linarith) s1
      · have g := cast_le g
        have s0 : r (r (gridCell i (n + 1)) - r (gridCell i n)) ≤ 0 := (hr.mono (by linarith)).trans_eq z
        have s1 : r (r (r (gridCell i (n + 1)) - r (gridCell i n)) / 10) ≤ 0 := (hr.mono (by linarith)).trans_eq z
        refine hr.mono (add_le_add_right (hr.mono ?_) _)
        exact mul_le_mul_of_nonpos_right (by linarith) s1

/-- Over the whole range, in double precision: the hotter the water, the smaller the density, the larger the enthalpy, the
entropy, the internal energy and the specific volume. -/
theorem C101_monotone (hr : DoubleRounding r) {T T' : ℝ} (hT : IsDouble T) (hT' : IsDouble T') (h1 : 275 ≤ T) (h : T ≤ T')
    (h2 : T' ≤ 1345) :
    waterColumnFl r 3 T' ≤ waterColumnFl r 3 T ∧ waterColumnFl r 4 T ≤ waterColumnFl r 4 T' ∧
      waterColumnFl r 5 T ≤ waterColumnFl r 5 T' ∧ waterColumnFl r 6 T ≤ waterColumnFl r 6 T' ∧
      waterColumnFl r 10 T ≤ waterColumnFl r 10 T' := by
  obtain ⟨n, hn, hl, hu⟩ := waterCell_exists h1 (h.trans h2)
  obtain ⟨m, hm, hl', hu'⟩ := waterCell_exists (h1.trans h) h2
  have cast_le {x y : ℚ} (h : x ≤ y) : r x ≤ r y := hr.mono (by exact_mod_cast h)
  have up {i : ℕ} (hi : i < 11) (h7 : i ≠ 7) (g : ∀ n < 107, gridCell i n ≤ gridCell i (n + 1)) :
      waterColumnFl r i T ≤ waterColumnFl r i T' := by
    rcases le_or_gt T' (285 + 10 * (n : ℝ)) with hc | hc
    · exact (C101_cell_monotone hr hi h7 hn hT hT' hl h hc).1 (g n hn)
    · have hnm : n + 1 ≤ m := by
        have : (n : ℝ) < m := by linarith
        exact_mod_cast this
      have a := (C101_between hr hi h7 hn hT hl hu).2
      have b := (C101_between hr hi h7 hm hT' hl' hu').1
      rw [max_eq_right (cast_le (g n hn))] at a
      rw [min_eq_left (cast_le (g m hm))] at b
      have := grid_mono (i := i) 1 (fun n hn => by rw [one_mul, one_mul]; exact cast_le (g n hn)) hnm (by omega)
      linarith
  have down {i : ℕ} (hi : i < 11) (h7 : i ≠ 7) (g : ∀ n < 107, gridCell i (n + 1) ≤ gridCell i n) :
      waterColumnFl r i T' ≤ waterColumnFl r i T := by
    rcases le_or_gt T' (285 + 10 * (n : ℝ)) with hc | hc
    · exact (C101_cell_monotone hr hi h7 hn hT hT' hl h hc).2 (g n hn)
    · have hnm : n + 1 ≤ m := by
        have : (n : ℝ) < m := by linarith
        exact_mod_cast this
      have a := (C101_between hr hi h7 hn hT hl hu).1
      have b := (C101_between hr hi h7 hm hT' hl' hu').2
      rw [min_eq_right (cast_le (g n hn))] at a
      rw [max_eq_left (cast_le (g m hm))] at b
      have := grid_mono (i := i) (-1) (fun n hn => by have := cast_le (g n hn); linarith) hnm (by omega)
      linarith
  have tab (n : ℕ) (hn : n < 107) := monotone_table n (List.mem_range.2 hn)
  exact ⟨down (by decide) (by decide) fun n hn => (tab n hn).1.le, up (by decide) (by decide) fun n hn => (tab n hn).2.1.le,
    up (by decide) (by decide) fun n hn => (tab n hn).2.2.1.le, up (by decide) (by decide) fun n hn => (tab n hn).2.2.2.1.le,
    up (by decide) (by decide) fun n hn => (tab n hn).2.2.2.2.1.le⟩

/-! ## Non-vacuity -/

/-- The rounding of Python is a rounding to double precision, and 300 K and 373.125 K are doubles. -/
example : DoubleRounding (toBits53 nearestEven) ∧ IsDouble 300 ∧ IsDouble (373 + 1 / 8) :=
  ⟨python_rounding, ⟨300, 0, by norm_num, by norm_num⟩, ⟨2985, -3, by norm_num, by norm_num⟩⟩

example : getWaterPropertiesFl (toBits53 nearestEven) 200 = .error .outOfRange :=
  (C101_object_range python_rounding ⟨200, 0, by norm_num, by norm_num⟩).1.2 (by norm_num)

/-- So the density of water at 300 K that Python computes is off by less than two units of the twelfth digit. -/
example : ∃ l x, waterDataFl (toBits53 nearestEven) 300 = .ok (.num 300 :: l) ∧ l[3]? = some (.num x) ∧
    |x - 996445 / 1000| ≤ 2 / 10 ^ 12 * (996445 / 1000) := by
  obtain ⟨l, e, -, h⟩ := C101_relative python_rounding (T := 300)
    ⟨300, 0, by norm_num, by norm_num⟩ (by norm_num) (by norm_num)
  obtain ⟨x, hx, hx'⟩ := h 3 (by norm_num) (by norm_num)
  refine ⟨l, x, e, hx, ?_⟩
  have hc : waterColumn 3 300 = 996445 / 1000 := by
    rw [waterColumn_cell (n := 2) (by norm_num) (by norm_num) (by norm_num) (by norm_num) (by norm_num),
      show gridCell 3 2 = 99781 / 100 by decide +kernel, show gridCell 3 (2 + 1) = 99508 / 100 by decide +kernel]
    norm_num
  rwa [hc] at hx'

end Verif
