import Verif.Utility.Water
import Verif.Tactic.UnitsEval
import Verif.Lemmas.Construct
import Mathlib.Topology.Order.Basic
import Mathlib.Topology.Instances.Real.Lemmas
import Mathlib.Data.Rat.Cast.Order
import Mathlib.Tactic

/-!
# C37, C38, C39: water properties
-/

namespace Verif

/-! ## The table -/

/-- Seven numbers, the phase, three numbers. -/
def waterShape : List WCell → Bool
  | [.num _, .num _, .num _, .num _, .num _, .num _, .num _, .str _, .num _, .num _, .num _] => true
  | _ => false

theorem waterTable_grid : ∀ n ∈ List.range 108, ∃ r ∈ waterTable, r.1 = 275 + 10 * (n : ℚ) ∧ waterShape r.2 = true := by
  decide +kernel

theorem waterTable_sorted : waterTable.Pairwise (fun a b => a.1 < b.1) := by
  have h : (waterTable.map Prod.fst).Pairwise (· < ·) := by
    rw [← List.isChain_iff_pairwise]
    decide +kernel
  exact List.pairwise_map.1 h

/-- The rows are determined by their temperature. -/
theorem waterRow_of_mem {q : ℚ} {row : List WCell} {k : ℤ} (h : (q, row) ∈ waterTable) (hk : q = k) :
    waterRow k = .ok row := by
  unfold waterRow
  have hs := waterTable_sorted
  have : ∀ l : List (ℚ × List WCell), l.Pairwise (fun a b => a.1 < b.1) → (q, row) ∈ l →
      l.find? (fun r => r.1 = (k : ℚ)) = some (q, row) := by
    intro l
    induction l with
    | nil => intro _ h; exact absurd h (by simp)
    | cons x t ih =>
      intro hp hm
      rw [List.pairwise_cons] at hp
      rcases List.mem_cons.1 hm with h | h
      · subst h
        simp [hk]
      · have hlt := hp.1 _ h
        rw [List.find?_cons_of_neg (by simp; rw [← hk]; exact ne_of_lt hlt)]
        exact ih hp.2 h
  rw [this _ hs h]

theorem waterRow_grid {n : ℕ} (h : n < 108) :
    ∃ row, ((275 + 10 * (n : ℚ)), row) ∈ waterTable ∧ waterShape row = true := by
  obtain ⟨r, hr, h1, h2⟩ := waterTable_grid n (by simpa using h)
  exact ⟨r.2, by rw [← h1]; exact hr, h2⟩

theorem waterTable_unique {q : ℚ} {r r' : List WCell} (h : (q, r) ∈ waterTable) (h' : (q, r') ∈ waterTable) : r = r' := by
  have hs := waterTable_sorted
  by_contra hne
  have := List.Pairwise.forall_of_forall_of_flip (R := fun a b : ℚ × List WCell => a.1 = b.1 → a = b) (l := waterTable)
    (by simp) (hs.imp (fun h e => absurd e (ne_of_lt h))) (hs.imp (fun h e => absurd e.symm (ne_of_lt h)))
  exact hne (by simpa using this h h' rfl)

theorem waterShape_cases {r : List WCell} (h : waterShape r = true) :
    ∃ a b c d e f g p x y z, r = [.num a, .num b, .num c, .num d, .num e, .num f, .num g, .str p, .num x, .num y, .num z] := by
  unfold waterShape at h
  split at h
  · exact ⟨_, _, _, _, _, _, _, _, _, _, _, rfl⟩
  · exact absurd h (by simp)

/-! ## The specification: linear interpolation between neighbouring rows -/

open Classical in
/-- The value a fraction `t` of the way from one entry to the other; a phase changes just above the lower row. -/
noncomputable def lerpCell (t : ℝ) : WCell → WCell → WVal
  | .num a, .num b => .num (a + t * (b - a))
  | .str a, .str b => .str (if t = 0 then a else b)
  | a, _ => a.toVal

theorem interpolate_num {T : ℝ} {n : ℤ} {key : Sym} (hk : key ≠ c!"Phase") (a b : ℚ) :
    interpolate T (n * 10 + 275) ((n + 1) * 10 + 275) key (.num a) (.num b)
      = .ok (lerpCell ((T - (n * 10 + 275)) / 10) (.num a) (.num b)) := by
  unfold interpolate
  split_ifs with h
  · injection h with h
    subst h
    simp [lerpCell, WCell.toVal]
  · have h10 : ((((n + 1) * 10 + 275 : ℤ) : ℝ)) - ((n * 10 + 275 : ℤ) : ℝ) = 10 := by push_cast; ring
    simp only [h10, pyDiv, show (10 : ℝ) ≠ 0 by norm_num, if_false, lerpCell]
    push_cast
    congr 2
    ring

theorem interpolate_same {T : ℝ} {n : ℤ} {key : Sym} (c : WCell) : interpolate T n n key c c = .ok c.toVal := by
  simp [interpolate]

theorem interpolate_phase {T : ℝ} {n m : ℤ} (a b : Sym) :
    interpolate T n m c!"Phase" (.str a) (.str b) = .ok (.str b) := by
  unfold interpolate
  split_ifs with h
  · injection h with h
    subst h
    rfl
  · exact absurd rfl ‹_›
  · rfl

theorem floor_cell {T : ℝ} {n : ℕ} (h1 : 275 + 10 * (n : ℝ) < T) (h2 : T < 285 + 10 * (n : ℝ)) :
    ⌊(T - 275) / 10⌋ = (n : ℤ) ∧ ⌈(T - 275) / 10⌉ = (n : ℤ) + 1 := by
  constructor
  · rw [Int.floor_eq_iff]
    push_cast
    constructor <;> linarith
  · rw [Int.ceil_eq_iff]
    push_cast
    constructor <;> linarith

theorem floor_grid {T : ℝ} {n : ℕ} (h1 : T = 275 + 10 * (n : ℝ)) :
    ⌊(T - 275) / 10⌋ = (n : ℤ) ∧ ⌈(T - 275) / 10⌉ = (n : ℤ) := by
  have : (T - 275) / 10 = (n : ℝ) := by rw [h1]; ring
  rw [this]
  exact ⟨Int.floor_natCast n, Int.ceil_natCast n⟩

theorem waterData_grid {n : ℕ} (hn : n < 108) {row : List WCell} (h : ((275 + 10 * (n : ℚ)), row) ∈ waterTable) :
    waterData (275 + 10 * (n : ℝ)) = .ok (.num (275 + 10 * (n : ℝ)) :: row.map WCell.toVal) := by
  have hn' : (n : ℝ) ≤ 107 := by exact_mod_cast Nat.lt_succ_iff.1 hn
  have h0 : (0 : ℝ) ≤ n := Nat.cast_nonneg n
  obtain ⟨hf, hc⟩ := floor_grid (T := 275 + 10 * (n : ℝ)) rfl
  have hr := waterRow_of_mem (k := (n : ℤ) * 10 + 275) h (by push_cast; ring)
  obtain ⟨row', hm, hs⟩ := waterRow_grid hn
  obtain rfl := waterTable_unique h hm
  obtain ⟨a, b, c, d, e, f, g, p, x, y, z, rfl⟩ := waterShape_cases hs
  unfold waterData
  rw [if_pos ⟨by linarith, by linarith⟩]
  simp only [hf, hc, getPropertyData, hr, waterKeys, interpolateAll, interpolate_same, List.map]

theorem waterData_inner {n : ℕ} (hn : n < 107) {r1 r2 : List WCell} (h1 : ((275 + 10 * (n : ℚ)), r1) ∈ waterTable)
    (h2 : ((285 + 10 * (n : ℚ)), r2) ∈ waterTable) {T : ℝ} (hl : 275 + 10 * (n : ℝ) < T) (hu : T < 285 + 10 * (n : ℝ)) :
    waterData T = .ok (.num T :: List.zipWith (lerpCell ((T - (275 + 10 * n)) / 10)) r1 r2) := by
  have hn' : (n : ℝ) ≤ 106 := by exact_mod_cast Nat.lt_succ_iff.1 hn
  have h0 : (0 : ℝ) ≤ n := Nat.cast_nonneg n
  obtain ⟨hf, hc⟩ := floor_cell hl hu
  have hr1 := waterRow_of_mem (k := (n : ℤ) * 10 + 275) h1 (by push_cast; ring)
  have hr2 := waterRow_of_mem (k := ((n : ℤ) + 1) * 10 + 275) h2 (by push_cast; ring)
  obtain ⟨row', hm, hs⟩ := waterRow_grid (n := n) (by omega)
  obtain rfl := waterTable_unique h1 hm
  obtain ⟨row', hm, hs'⟩ := waterRow_grid (n := n + 1) (by omega)
  rw [show (275 : ℚ) + 10 * ((n + 1 : ℕ) : ℚ) = 285 + 10 * (n : ℚ) by push_cast; ring] at hm
  obtain rfl := waterTable_unique h2 hm
  obtain ⟨a, b, c, d, e, f, g, p, x, y, z, rfl⟩ := waterShape_cases hs
  obtain ⟨a', b', c', d', e', f', g', p', x', y', z', rfl⟩ := waterShape_cases hs'
  unfold waterData
  rw [if_pos ⟨by linarith, by linarith⟩]
  have ht : (T - (275 + 10 * (n : ℝ))) / 10 ≠ 0 := by
    apply ne_of_gt
    apply div_pos <;> linarith
  have hph : lerpCell ((T - (275 + 10 * (n : ℝ))) / 10) (.str p) (.str p') = .str p' := by
    simp only [lerpCell, if_neg ht]
  have hnum : ∀ (key : Sym), key ≠ c!"Phase" → ∀ a b : ℚ,
      interpolate T ((n : ℤ) * 10 + 275) (((n : ℤ) + 1) * 10 + 275) key (.num a) (.num b)
      = .ok (lerpCell ((T - (275 + 10 * (n : ℝ))) / 10) (.num a) (.num b)) := by
    intro key hk a b
    rw [interpolate_num hk, show ((((n : ℤ) : ℝ)) * 10 + 275) = 275 + 10 * (n : ℝ) by push_cast; ring]
  simp only [hf, hc, getPropertyData, hr1, hr2, waterKeys, interpolateAll, interpolate_phase, List.zipWith, hph,
    hnum _ (show c!"Pressure (MPa)" ≠ c!"Phase" by decide), hnum _ (show c!"Cp (J/g*K)" ≠ c!"Phase" by decide),
    hnum _ (show c!"Cv (J/g*K)" ≠ c!"Phase" by decide), hnum _ (show c!"Density (kg/m3)" ≠ c!"Phase" by decide),
    hnum _ (show c!"Enthalpy (kJ/kg)" ≠ c!"Phase" by decide), hnum _ (show c!"Entropy (J/g*K)" ≠ c!"Phase" by decide),
    hnum _ (show c!"Internal Energy (kJ/kg)" ≠ c!"Phase" by decide),
    hnum _ (show c!"Therm. Cond. (W/m*K)" ≠ c!"Phase" by decide),
    hnum _ (show c!"Viscosity (uPa*s)" ≠ c!"Phase" by decide), hnum _ (show c!"Volume (m3/kg)" ≠ c!"Phase" by decide)]

/-! ## C37 -/

/-- **C37**, between neighbouring rows of the grid, both included, every entry is the linear interpolation. -/
theorem C37_cell {n : ℕ} (hn : n < 107) {r1 r2 : List WCell} (h1 : ((275 + 10 * (n : ℚ)), r1) ∈ waterTable)
    (h2 : ((285 + 10 * (n : ℚ)), r2) ∈ waterTable) {T : ℝ} (hl : 275 + 10 * (n : ℝ) ≤ T) (hu : T ≤ 285 + 10 * (n : ℝ)) :
    waterData T = .ok (.num T :: List.zipWith (lerpCell ((T - (275 + 10 * n)) / 10)) r1 r2) := by
  obtain ⟨row', hm, hs⟩ := waterRow_grid (n := n) (by omega)
  obtain rfl := waterTable_unique h1 hm
  obtain ⟨row', hm', hs'⟩ := waterRow_grid (n := n + 1) (by omega)
  have hq : (275 : ℚ) + 10 * ((n + 1 : ℕ) : ℚ) = 285 + 10 * (n : ℚ) := by push_cast; ring
  rw [hq] at hm'
  obtain rfl := waterTable_unique h2 hm'
  rcases eq_or_lt_of_le hl with rfl | hl
  · rw [waterData_grid (by omega) h1]
    obtain ⟨a, b, c, d, e, f, g, p, x, y, z, rfl⟩ := waterShape_cases hs
    obtain ⟨a', b', c', d', e', f', g', p', x', y', z', rfl⟩ := waterShape_cases hs'
    simp [lerpCell, WCell.toVal]
  · rcases eq_or_lt_of_le hu with rfl | hu
    · have he : (285 : ℝ) + 10 * n = 275 + 10 * ((n + 1 : ℕ) : ℝ) := by push_cast; ring
      have hg := waterData_grid (n := n + 1) (by omega) (row := r2) (by rw [hq]; exact h2)
      rw [he, hg]
      obtain ⟨a, b, c, d, e, f, g, p, x, y, z, rfl⟩ := waterShape_cases hs
      obtain ⟨a', b', c', d', e', f', g', p', x', y', z', rfl⟩ := waterShape_cases hs'
      have h1 : ((275 + 10 * (((n + 1 : ℕ) : ℝ)) - (275 + 10 * (n : ℝ))) / 10) = 1 := by push_cast; ring
      simp only [h1, List.zipWith, lerpCell, List.map, WCell.toVal]
      simp
    · exact waterData_inner hn h1 h2 hl hu

/-- Every temperature in range lies in a cell of the grid. -/
theorem waterCell_exists {T : ℝ} (h1 : 275 ≤ T) (h2 : T ≤ 1345) :
    ∃ n : ℕ, n < 107 ∧ 275 + 10 * (n : ℝ) ≤ T ∧ T ≤ 285 + 10 * (n : ℝ) := by
  rcases eq_or_lt_of_le h2 with rfl | h2
  · exact ⟨106, by norm_num, by norm_num, by norm_num⟩
  · refine ⟨⌊(T - 275) / 10⌋₊, ?_, ?_, ?_⟩
    · rw [Nat.floor_lt (by apply div_nonneg <;> linarith)]
      push_cast
      linarith
    · have := Nat.floor_le (show 0 ≤ (T - 275) / 10 by apply div_nonneg <;> linarith)
      linarith
    · have := Nat.lt_floor_add_one ((T - 275) / 10)
      linarith

theorem waterRow_grid' {n : ℕ} (h : n < 107) :
    ∃ row, ((285 + 10 * (n : ℚ)), row) ∈ waterTable ∧ waterShape row = true := by
  obtain ⟨r, hr, hs⟩ := waterRow_grid (n := n + 1) (by omega)
  rw [show (275 : ℚ) + 10 * ((n + 1 : ℕ) : ℚ) = 285 + 10 * (n : ℚ) by push_cast; ring] at hr
  exact ⟨r, hr, hs⟩

/-- **C37**, the exception is raised exactly outside the range. -/
theorem C37_range (T : ℝ) :
    (waterData T = .error .outOfRange ↔ T < 275 ∨ 1345 < T) ∧
    ((∃ l, waterData T = .ok l) ↔ 275 ≤ T ∧ T ≤ 1345) := by
  by_cases h : 275 ≤ T ∧ T ≤ 1345
  · obtain ⟨n, hn, hl, hu⟩ := waterCell_exists h.1 h.2
    obtain ⟨r1, h1, -⟩ := waterRow_grid (n := n) (by omega)
    obtain ⟨r2, h2, -⟩ := waterRow_grid' hn
    rw [C37_cell hn h1 h2 hl hu]
    refine ⟨⟨fun h => (by cases h), fun h' => ?_⟩, ⟨fun _ => h, fun _ => ⟨_, rfl⟩⟩⟩
    rcases h' with h' | h' <;> linarith [h.1, h.2]
  · have hd : waterData T = .error .outOfRange := by
      unfold waterData
      rw [if_neg (by simpa [ge_iff_le] using h)]
    rw [hd]
    refine ⟨⟨fun _ => ?_, fun _ => rfl⟩, ⟨fun ⟨l, hl⟩ => (by cases hl), fun h' => absurd h' h⟩⟩
    by_contra hc
    push Not at hc
    exact h hc

/-- **C37**, at the temperatures of the 10 K grid the result is the row of the table. -/
theorem C37_grid {q : ℚ} {row : List WCell} (h : (q, row) ∈ waterTable) {n : ℕ} (hn : n < 108) (hq : q = 275 + 10 * n) :
    waterData q = .ok (.num q :: row.map WCell.toVal) := by
  subst hq
  have := waterData_grid hn h
  push_cast
  exact this

/-- **C37**, each value lies between the values of the neighbouring rows. -/
theorem C37_between {T : ℝ} (h1 : 275 ≤ T) (h2 : T ≤ 1345) :
    ∃ (q : ℚ) (r1 r2 : List WCell) (l : List WVal), (q, r1) ∈ waterTable ∧ (q + 10, r2) ∈ waterTable ∧
      (q : ℝ) ≤ T ∧ T ≤ q + 10 ∧ waterData T = .ok (.num T :: l) ∧ l.length = 11 ∧
      ∀ i < 11, i ≠ 7 → ∃ (a b : ℚ) (x : ℝ), r1[i]? = some (.num a) ∧ r2[i]? = some (.num b) ∧ l[i]? = some (.num x) ∧
        min (a : ℝ) b ≤ x ∧ x ≤ max (a : ℝ) b := by
  obtain ⟨n, hn, hl, hu⟩ := waterCell_exists h1 h2
  obtain ⟨r1, m1, s1⟩ := waterRow_grid (n := n) (by omega)
  obtain ⟨r2, m2, s2⟩ := waterRow_grid' hn
  refine ⟨275 + 10 * n, r1, r2, _, m1, ?_, ?_, ?_, C37_cell hn m1 m2 hl hu, ?_, ?_⟩
  · rw [show (275 : ℚ) + 10 * n + 10 = 285 + 10 * n by ring]; exact m2
  · push_cast; exact hl
  · push_cast; linarith
  all_goals
    obtain ⟨a, b, c, d, e, f, g, p, x, y, z, rfl⟩ := waterShape_cases s1
    obtain ⟨a', b', c', d', e', f', g', p', x', y', z', rfl⟩ := waterShape_cases s2
  · rfl
  · intro i hi h7
    have key : ∀ u v : ℚ, min (u : ℝ) v ≤ u + (T - (275 + 10 * n)) / 10 * (v - u) ∧
        u + (T - (275 + 10 * n)) / 10 * (v - u) ≤ max (u : ℝ) v := by
      intro u v
      have t0 : 0 ≤ (T - (275 + 10 * n)) / 10 := div_nonneg (by linarith) (by norm_num)
      have t1 : (T - (275 + 10 * n)) / 10 ≤ 1 := by rw [div_le_one (by norm_num)]; linarith
      rcases le_total (u : ℝ) v with huv | huv
      · rw [min_eq_left huv, max_eq_right huv]
        constructor <;> nlinarith
      · rw [min_eq_right huv, max_eq_left huv]
        constructor <;> nlinarith
    interval_cases i <;> first
      | exact absurd rfl h7
      | exact ⟨_, _, _, rfl, rfl, rfl, key _ _⟩

/-- The number in column `i` of the result. -/
noncomputable def waterColumn (i : ℕ) (T : ℝ) : ℝ :=
  match waterData T with
  | .ok l => match l[i + 1]? with
    | some (.num x) => x
    | _ => 0
  | .error _ => 0

/-- **C37**, every numeric column is a continuous function of the temperature on the whole range. -/
theorem C37_continuous {i : ℕ} (hi : i < 11) (h7 : i ≠ 7) : ContinuousOn (waterColumn i) (Set.Icc 275 1345) := by
  have cell : ∀ n : ℕ, n < 107 → ContinuousOn (waterColumn i) (Set.Icc (275 + 10 * (n : ℝ)) (285 + 10 * n)) := by
    intro n hn
    obtain ⟨r1, m1, s1⟩ := waterRow_grid (n := n) (by omega)
    obtain ⟨r2, m2, s2⟩ := waterRow_grid' hn
    obtain ⟨a, b, c, d, e, f, g, p, x, y, z, rfl⟩ := waterShape_cases s1
    obtain ⟨a', b', c', d', e', f', g', p', x', y', z', rfl⟩ := waterShape_cases s2
    have haff : ∃ u v : ℝ, ∀ T ∈ Set.Icc (275 + 10 * (n : ℝ)) (285 + 10 * n),
        waterColumn i T = u + (T - (275 + 10 * n)) / 10 * (v - u) := by
      interval_cases i <;> first
        | exact absurd rfl h7
        | exact ⟨_, _, fun T hT => by simp only [waterColumn, C37_cell hn m1 m2 hT.1 hT.2]; rfl⟩
    obtain ⟨u, v, huv⟩ := haff
    refine ContinuousOn.congr ?_ huv
    fun_prop
  have main : ∀ n : ℕ, n ≤ 107 → ContinuousOn (waterColumn i) (Set.Icc 275 (275 + 10 * (n : ℝ))) := by
    intro n
    induction n with
    | zero => intro _; simp
    | succ n ih =>
      intro hn
      have e : Set.Icc (275 : ℝ) (275 + 10 * ((n + 1 : ℕ) : ℝ))
          = Set.Icc 275 (275 + 10 * (n : ℝ)) ∪ Set.Icc (275 + 10 * (n : ℝ)) (285 + 10 * n) := by
        rw [Set.Icc_union_Icc_eq_Icc (by have := Nat.cast_nonneg (α := ℝ) n; linarith) (by linarith)]
        congr 1
        push_cast
        ring
      rw [e]
      exact (ih (by omega)).union_of_isClosed (cell n (by omega)) isClosed_Icc isClosed_Icc
  have := main 107 le_rfl
  norm_num at this
  exact this

/-- The rows of the grid all have the pressure 0.10132 MPa. -/
theorem waterTable_pressure : ∀ r ∈ waterTable, r.1 ≠ 37312 / 100 → r.2[0]? = some (.num (10132 / 100000)) := by
  decide +kernel

theorem grid_ne_boiling (n : ℕ) : (275 : ℚ) + 10 * n ≠ 37312 / 100 := by
  intro h
  have h' : (27500 + 1000 * n : ℚ) = 37312 := by linarith
  have : 27500 + 1000 * n = 37312 := by exact_mod_cast h'
  omega

theorem waterShape_pressure {q : ℚ} {n : ℕ} {a b c d e f g x y z : ℚ} {p : Sym} (hq : q = 275 + 10 * n)
    (h : (q, [WCell.num a, .num b, .num c, .num d, .num e, .num f, .num g, .str p, .num x, .num y, .num z]) ∈ waterTable) :
    a = 10132 / 100000 := by
  have := waterTable_pressure _ h (by rw [hq]; exact grid_ne_boiling n)
  simpa using this

/-- The list returned inside the range. -/
theorem waterData_shape {T : ℝ} (h1 : 275 ≤ T) (h2 : T ≤ 1345) :
    ∃ p, waterData T = .ok [.num T, .num (10132 / 100000), .num (waterColumn 1 T), .num (waterColumn 2 T),
      .num (waterColumn 3 T), .num (waterColumn 4 T), .num (waterColumn 5 T), .num (waterColumn 6 T), .str p,
      .num (waterColumn 8 T), .num (waterColumn 9 T), .num (waterColumn 10 T)] := by
  obtain ⟨n, hn, hl, hu⟩ := waterCell_exists h1 h2
  obtain ⟨r1, m1, s1⟩ := waterRow_grid (n := n) (by omega)
  obtain ⟨r2, m2, s2⟩ := waterRow_grid' hn
  obtain ⟨a, b, c, d, e, f, g, p, x, y, z, rfl⟩ := waterShape_cases s1
  obtain ⟨a', b', c', d', e', f', g', p', x', y', z', rfl⟩ := waterShape_cases s2
  obtain rfl := waterShape_pressure rfl m1
  obtain rfl := waterShape_pressure (n := n + 1) (by push_cast; ring) m2
  have hd := C37_cell hn m1 m2 hl hu
  simp only [waterColumn, hd]
  simp [lerpCell]

/-- **C37** is not true of every row of the table: the row of the boiling point, 373.12 K, is never read. -/
theorem C37_table_false : ∃ (q : ℚ) (row : List WCell), (q, row) ∈ waterTable ∧ 275 ≤ q ∧ q ≤ 1345 ∧
    waterData q ≠ .ok (.num q :: row.map WCell.toVal) := by
  have hm : ∃ r ∈ waterTable, r.1 = 37312 / 100 ∧ r.2[0]? = some (.num (10133 / 100000)) := by decide +kernel
  obtain ⟨⟨q, row⟩, h, h1, h2⟩ := hm
  simp only at h1 h2
  refine ⟨q, row, h, by rw [h1]; norm_num, by rw [h1]; norm_num, ?_⟩
  obtain ⟨p, hp⟩ := waterData_shape (T := (q : ℝ)) (by rw [h1]; norm_num) (by rw [h1]; norm_num)
  rw [hp]
  intro e
  injection e with e
  rcases row with _ | ⟨c, t⟩
  · simp at h2
  · simp at h2
    subst h2
    simp [WCell.toVal] at e

/-- Halfway between two rows the values are the means. -/
example : ∃ (r1 r2 : List WCell) (l : List WVal), (295, r1) ∈ waterTable ∧ (305, r2) ∈ waterTable ∧
    waterData 300 = .ok (.num 300 :: l) ∧ l = List.zipWith (lerpCell (1 / 2)) r1 r2 := by
  obtain ⟨r1, m1, s1⟩ := waterRow_grid (n := 2) (by omega)
  obtain ⟨r2, m2, s2⟩ := waterRow_grid' (n := 2) (by omega)
  have h := C37_cell (T := 300) (by omega) m1 m2 (by norm_num) (by norm_num)
  norm_num at m1 m2 h
  exact ⟨r1, r2, _, m1, m2, h, by norm_num⟩

example : waterData 200 = .error .outOfRange := (C37_range 200).1.2 (by norm_num)

/-! ## C38 -/

/-- The units of the attributes other than temperature and pressure, get_chemical_properties.py:20-31. -/
theorem waterInit_eval (a b c d e f g : ℝ) (p : Sym) (x y z t : ℝ) :
    waterInit [.num t, .num a, .num b, .num c, .num d, .num e, .num f, .num g, .str p, .num x, .num y, .num z]
      = .ok
        { temperature := .unit ⟨.temperature, a, c!"K", 1⟩
          pressure := .unit ⟨.pressure, t, c!"MPa", 1⟩
          cp := .multi ⟨.sub c!"Cp", b, [⟨c!"J", 1⟩], [⟨c!"g", 1⟩, ⟨c!"K", 1⟩]⟩
          cv := .multi ⟨.sub c!"Cv", c, [⟨c!"J", 1⟩], [⟨c!"g", 1⟩, ⟨c!"K", 1⟩]⟩
          density := .multi ⟨.sub c!"Density", d, [⟨c!"kg", 1⟩], [⟨c!"m", 3⟩]⟩
          enthalpy := .multi ⟨.sub c!"Enthalpy", e, [⟨c!"kJ", 1⟩], [⟨c!"kg", 1⟩]⟩
          entropy := .multi ⟨.sub c!"Entropy", f, [⟨c!"J", 1⟩], [⟨c!"g", 1⟩, ⟨c!"K", 1⟩]⟩
          internalEnergy := .multi ⟨.sub c!"InternalEnergy", g, [⟨c!"kJ", 1⟩], [⟨c!"kg", 1⟩]⟩
          phase := p
          thermalConductivity := .multi ⟨.sub c!"ThermalConductivity", x, [⟨c!"W", 1⟩], [⟨c!"m", 1⟩, ⟨c!"K", 1⟩]⟩
          viscosity := .multi ⟨.sub c!"DynamicViscosity", y, [⟨c!"uPa", 1⟩, ⟨c!"s", 1⟩], []⟩
          specificVolume := .multi ⟨.sub c!"SpecificVolume", z, [⟨c!"m", 3⟩], [⟨c!"kg", 1⟩]⟩ } := by
  unfold waterInit
  units_eval [Except.bind]

/-- **C38** is false at every temperature: the object reports the pressure of the table as its temperature and the
temperature as its pressure. -/
theorem C38_swapped {T : ℝ} (h1 : 275 ≤ T) (h2 : T ≤ 1345) :
    ∃ w, getWaterProperties T = .ok w ∧ w.temperature = .unit ⟨.temperature, 10132 / 100000, c!"K", 1⟩ ∧
      w.pressure = .unit ⟨.pressure, T, c!"MPa", 1⟩ := by
  obtain ⟨p, hp⟩ := waterData_shape h1 h2
  simp only [getWaterProperties, hp, waterInit_eval]
  exact ⟨_, rfl, rfl, rfl⟩

theorem C38_temperature_false {T : ℝ} (h1 : 275 ≤ T) (h2 : T ≤ 1345) :
    ∃ w, getWaterProperties T = .ok w ∧ w.temperature ≠ .unit ⟨.temperature, T, c!"K", 1⟩ ∧
      w.pressure ≠ .unit ⟨.pressure, 10132 / 100000, c!"MPa", 1⟩ := by
  obtain ⟨w, hw, ht, hp⟩ := C38_swapped h1 h2
  refine ⟨w, hw, ?_, ?_⟩
  · rw [ht]
    intro h
    injection h with h
    injection h with _ h
    linarith
  · rw [hp]
    intro h
    injection h with h
    injection h with _ h
    linarith

/-- **C38**, what does hold: every other attribute is the column of the interpolated table with its unit.  Missing:
temperature and pressure, which are swapped (`C38_temperature_false`). -/
theorem C38_attributes_partial {T : ℝ} (h1 : 275 ≤ T) (h2 : T ≤ 1345) :
    ∃ w, getWaterProperties T = .ok w ∧
      w.cp = .multi ⟨.sub c!"Cp", waterColumn 1 T, [⟨c!"J", 1⟩], [⟨c!"g", 1⟩, ⟨c!"K", 1⟩]⟩ ∧
      w.cv = .multi ⟨.sub c!"Cv", waterColumn 2 T, [⟨c!"J", 1⟩], [⟨c!"g", 1⟩, ⟨c!"K", 1⟩]⟩ ∧
      w.density = .multi ⟨.sub c!"Density", waterColumn 3 T, [⟨c!"kg", 1⟩], [⟨c!"m", 3⟩]⟩ ∧
      w.enthalpy = .multi ⟨.sub c!"Enthalpy", waterColumn 4 T, [⟨c!"kJ", 1⟩], [⟨c!"kg", 1⟩]⟩ ∧
      w.entropy = .multi ⟨.sub c!"Entropy", waterColumn 5 T, [⟨c!"J", 1⟩], [⟨c!"g", 1⟩, ⟨c!"K", 1⟩]⟩ ∧
      w.internalEnergy = .multi ⟨.sub c!"InternalEnergy", waterColumn 6 T, [⟨c!"kJ", 1⟩], [⟨c!"kg", 1⟩]⟩ ∧
      w.thermalConductivity =
        .multi ⟨.sub c!"ThermalConductivity", waterColumn 8 T, [⟨c!"W", 1⟩], [⟨c!"m", 1⟩, ⟨c!"K", 1⟩]⟩ ∧
      w.viscosity = .multi ⟨.sub c!"DynamicViscosity", waterColumn 9 T, [⟨c!"uPa", 1⟩, ⟨c!"s", 1⟩], []⟩ ∧
      w.specificVolume = .multi ⟨.sub c!"SpecificVolume", waterColumn 10 T, [⟨c!"m", 3⟩], [⟨c!"kg", 1⟩]⟩ := by
  obtain ⟨p, hp⟩ := waterData_shape h1 h2
  simp only [getWaterProperties, hp, waterInit_eval]
  exact ⟨_, rfl, rfl, rfl, rfl, rfl, rfl, rfl, rfl, rfl, rfl⟩

example : ∃ w, getWaterProperties 300 = .ok w ∧ w.pressure = .unit ⟨.pressure, 300, c!"MPa", 1⟩ := by
  obtain ⟨w, h, -, hp⟩ := C38_swapped (T := 300) (by norm_num) (by norm_num)
  exact ⟨w, h, hp⟩

/-- **C37**, the object is built exactly inside the range; outside it the same exception is raised as for the list. -/
theorem C37_object_range (T : ℝ) :
    (getWaterProperties T = .error .outOfRange ↔ T < 275 ∨ 1345 < T) ∧
    ((∃ w, getWaterProperties T = .ok w) ↔ 275 ≤ T ∧ T ≤ 1345) := by
  by_cases h : 275 ≤ T ∧ T ≤ 1345
  · obtain ⟨w, e, -⟩ := C38_attributes_partial h.1 h.2
    rw [e]
    refine ⟨⟨fun h => (by cases h), fun h' => ?_⟩, ⟨fun _ => h, fun _ => ⟨_, rfl⟩⟩⟩
    rcases h' with h' | h' <;> linarith [h.1, h.2]
  · have h' : T < 275 ∨ 1345 < T := by
      by_contra hc
      push Not at hc
      exact h hc
    have e : getWaterProperties T = .error .outOfRange := by
      unfold getWaterProperties
      rw [(C37_range T).1.2 h']
    rw [e]
    exact ⟨⟨fun _ => h', fun _ => rfl⟩, ⟨fun ⟨w, h⟩ => (by cases h), fun h' => absurd h' h⟩⟩

example : getWaterProperties 200 = .error .outOfRange := (C37_object_range 200).1.2 (by norm_num)

/-! ## C39 -/

/-- The states of an object along a history of assignments, exceptions caught by the caller. -/
noncomputable def runAssignments (w : Water) : List ℝ → Water
  | [] => w
  | T :: ts => runAssignments (setTemperature w T).1 ts

open Classical in
/-- The last temperature of a history that is in range. -/
noncomputable def lastInRange (hist : List ℝ) : Option ℝ :=
  (hist.filter (fun T => 275 ≤ T ∧ T ≤ 1345)).getLast?

theorem setTemperature_in (w : Water) {T : ℝ} (h : 275 ≤ T ∧ T ≤ 1345) :
    ∃ w', getWaterProperties T = .ok w' ∧ setTemperature w T = (w', none) := by
  obtain ⟨p, hp⟩ := waterData_shape h.1 h.2
  simp only [getWaterProperties, setTemperature, hp, waterInit_eval]
  exact ⟨_, rfl, rfl⟩

theorem setTemperature_out (w : Water) {T : ℝ} (h : ¬ (275 ≤ T ∧ T ≤ 1345)) :
    setTemperature w T = (w, some .outOfRange) := by
  have := (C37_range T).1.2 (by by_contra hc; push Not at hc; exact h hc)
  simp [setTemperature, this]

/-- **C39**, a single assignment is all or nothing. -/
theorem C39_assignment (w : Water) (T : ℝ) :
    ((275 ≤ T ∧ T ≤ 1345) ∧ ∃ w', getWaterProperties T = .ok w' ∧ setTemperature w T = (w', none)) ∨
    (¬ (275 ≤ T ∧ T ≤ 1345) ∧ setTemperature w T = (w, some .outOfRange)) := by
  by_cases h : 275 ≤ T ∧ T ≤ 1345
  · exact .inl ⟨h, setTemperature_in w h⟩
  · exact .inr ⟨h, setTemperature_out w h⟩

/-- **C39**, after any history the object is the fresh one of the last in-range temperature, or untouched. -/
theorem C39_history (w : Water) (hist : List ℝ) :
    match lastInRange hist with
    | some T => getWaterProperties T = .ok (runAssignments w hist)
    | none => runAssignments w hist = w := by
  classical
  induction hist generalizing w with
  | nil => simp [lastInRange, runAssignments]
  | cons T ts ih =>
    rw [runAssignments]
    by_cases h : 275 ≤ T ∧ T ≤ 1345
    · obtain ⟨w', hw', hs⟩ := setTemperature_in w h
      rw [hs]
      have hl : lastInRange (T :: ts) = match lastInRange ts with | some x => some x | none => some T := by
        simp only [lastInRange, List.filter_cons, h, and_self, decide_true, if_true]
        rcases List.filter (fun T : ℝ => decide (275 ≤ T ∧ T ≤ 1345)) ts with _ | ⟨a, r⟩
        · rfl
        · simp [List.getLast?_cons]
      have := ih w'
      rw [hl]
      cases hx : lastInRange ts with
      | none => rw [hx] at this; simp only at this ⊢; rw [this]; exact hw'
      | some x => rw [hx] at this; exact this
    · rw [setTemperature_out w h]
      have hl : lastInRange (T :: ts) = lastInRange ts := by
        simp only [lastInRange, List.filter_cons, h, decide_false]
        rfl
      rw [hl]
      exact ih w

/-- Set to 300 K, then to 2000 K (raises), then nothing: the object of 300 K. -/
example (w : Water) : getWaterProperties 300 = .ok (runAssignments w [300, 2000]) := by
  have h := C39_history w [300, 2000]
  have hl : lastInRange [300, 2000] = some 300 := by
    simp only [lastInRange, List.filter_cons]
    norm_num
  rw [hl] at h
  exact h

/-! ## C62: the reported phase -/

/-- The phase in the result. -/
noncomputable def waterPhase (T : ℝ) : Option Sym :=
  match waterData T with
  | .ok l => match l[(8 : ℕ)]? with
    | some (.str p) => some p
    | _ => none
  | .error _ => none

theorem waterTable_phase : ∀ r ∈ waterTable,
    r.2[7]? = some (.str (if r.1 < 37312 / 100 then c!"liquid" else c!"vapor")) := by decide +kernel

theorem waterPhase_cell {n : ℕ} (hn : n < 107) {T : ℝ} (hl : 275 + 10 * (n : ℝ) ≤ T) (hu : T ≤ 285 + 10 * (n : ℝ)) :
    waterPhase T = some (if T = 275 + 10 * (n : ℝ) then (if n < 10 then c!"liquid" else c!"vapor")
      else (if n < 9 then c!"liquid" else c!"vapor")) := by
  obtain ⟨r1, m1, s1⟩ := waterRow_grid (n := n) (by omega)
  obtain ⟨r2, m2, s2⟩ := waterRow_grid' hn
  have p1 := waterTable_phase _ m1
  have p2 := waterTable_phase _ m2
  obtain ⟨a, b, c, d, e, f, g, p, x, y, z, rfl⟩ := waterShape_cases s1
  obtain ⟨a', b', c', d', e', f', g', p', x', y', z', rfl⟩ := waterShape_cases s2
  have i1 : ((275 : ℚ) + 10 * (n : ℚ) < 37312 / 100) ↔ n < 10 := by
    constructor
    · intro h
      have : (n : ℚ) < 10 := by linarith
      exact_mod_cast this
    · intro h
      have : (n : ℚ) ≤ 9 := by exact_mod_cast Nat.lt_succ_iff.1 h
      linarith
  have i2 : ((285 : ℚ) + 10 * (n : ℚ) < 37312 / 100) ↔ n < 9 := by
    constructor
    · intro h
      have : (n : ℚ) < 9 := by linarith
      exact_mod_cast this
    · intro h
      have : (n : ℚ) ≤ 8 := by exact_mod_cast Nat.lt_succ_iff.1 h
      linarith
  simp only [i1, i2] at p1 p2
  simp at p1 p2
  have ht : ((T - (275 + 10 * (n : ℝ))) / 10 = 0) ↔ T = 275 + 10 * (n : ℝ) := by
    rw [div_eq_zero_iff]
    constructor
    · rintro (h | h)
      · linarith
      · norm_num at h
    · intro h
      left
      linarith
  simp only [waterPhase, C37_cell hn m1 m2 hl hu, List.zipWith, lerpCell, ht, p1, p2]
  rfl

/-- **C62**, outside `(365, 373.12)` the reported phase is liquid below the boiling point of the table and vapor above.
Missing: the temperatures between 365 K and the boiling point, where it is wrong (`C62_phase_false`). -/
theorem C62_phase_partial {T : ℝ} (h1 : 275 ≤ T) (h2 : T ≤ 1345) (h3 : T ≤ 365 ∨ 37312 / 100 ≤ T) :
    waterPhase T = some (if T < 37312 / 100 then c!"liquid" else c!"vapor") := by
  obtain ⟨n, hn, hl, hu⟩ := waterCell_exists h1 h2
  rw [waterPhase_cell hn hl hu]
  congr 1
  rcases h3 with h3 | h3
  · rw [if_pos (show T < 37312 / 100 by linarith)]
    have hn9 : n ≤ 9 := by
      have : (n : ℝ) ≤ 9 := by linarith
      exact_mod_cast this
    rcases Nat.lt_or_eq_of_le hn9 with h | rfl
    · rw [if_pos (show n < 10 by omega), if_pos h, ite_self]
    · have : T = 275 + 10 * ((9 : ℕ) : ℝ) := by push_cast at hl ⊢; linarith
      rw [if_pos this]
      rfl
  · rw [if_neg (show ¬ T < 37312 / 100 by linarith)]
    have hn9 : 9 ≤ n := by
      by_contra hc
      have : (n : ℝ) ≤ 8 := by exact_mod_cast (show n ≤ 8 by omega)
      linarith
    rcases Nat.lt_or_eq_of_le hn9 with h | rfl
    · rw [if_neg (show ¬ n < 10 by omega), if_neg (show ¬ n < 9 by omega), ite_self]
    · have : T ≠ 275 + 10 * ((9 : ℕ) : ℝ) := by
        intro h
        push_cast at h
        linarith
      rw [if_neg this]
      rfl

/-- **C62** is false between 365 K and the boiling point: water there is reported as vapor. -/
theorem C62_phase_false {T : ℝ} (h1 : 365 < T) (h2 : T < 37312 / 100) : waterPhase T = some c!"vapor" := by
  rw [waterPhase_cell (n := 9) (by omega) (by norm_num; linarith) (by norm_num; linarith)]
  rw [if_neg (by norm_num; linarith)]
  rfl

example : waterPhase 300 = some c!"liquid" := by
  rw [C62_phase_partial (by norm_num) (by norm_num) (by norm_num), if_pos (by norm_num)]

example : waterPhase 370 = some c!"vapor" := C62_phase_false (by norm_num) (by norm_num)

end Verif
