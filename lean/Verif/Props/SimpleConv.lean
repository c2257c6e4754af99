import Verif.Lemmas.Simple
import Mathlib.Tactic.Linarith
import Mathlib.Tactic.NormNum
import Mathlib.Tactic.FieldSimp

/-! # C20-C23: conversion of simple quantities -/

namespace Verif

/-- `s` is a unit of class `c`: the standard, or listed in the shipped tables. -/
def UnitOf (c : UCls) (s : Sym) : Prop := standardOf c = some s ∨ s ∈ tableKeys stdTables c

/-- Units whose two table entries are not inverse to each other. -/
def inexact : List Sym := [c!"in", c!"ft", c!"mile", c!"lb"]

theorem UnitOf.factors {c : UCls} (hc : c ∈ linearClasses) {s : Sym} (h : UnitOf c s) :
    ∃ a b, HasFactors c s a b ∧ 0 < a ∧ 0 < b ∧ (s ∉ inexact → a * b = 1) ∧
      (s ≠ c!"mile" → |a * b - 1| ≤ 1 / 400000) := by
  rcases h with h | h
  · exact ⟨1, 1, .inl ⟨h, rfl, rfl⟩, by norm_num, by norm_num, by norm_num, by norm_num⟩
  · obtain ⟨⟨c', s', a, b⟩, he, rfl, rfl⟩ := entries_complete c hc s h
    have h2 : ∀ e ∈ entries, 0 < e.2.2.1 ∧ 0 < e.2.2.2 ∧ (e.2.1 ∉ inexact → e.2.2.1 * e.2.2.2 = 1) ∧
        (e.2.1 ≠ c!"mile" → |e.2.2.1 * e.2.2.2 - 1| ≤ 1 / 400000) := by decide +kernel
    exact ⟨a, b, .inr he, h2 _ he⟩

theorem UnitOf.self {c : UCls} (hc : c ∈ linearClasses) {s : Sym} (h : UnitOf c s) (v : ℝ) :
    convertUnit stdTables ⟨c, v, s, 1⟩ s = .ok ⟨c, v, s, 1⟩ := by
  obtain ⟨std, hstd, n1, n2, -⟩ := standard_facts c hc
  rcases h with h | h
  · rw [hstd] at h; cases h; exact convertUnit_same ⟨c, v, s, 1⟩ n2 n1
  · obtain ⟨⟨c', s', a, b⟩, he, rfl, rfl⟩ := entries_complete c hc s h
    have := entries_facts _ he
    exact convertUnit_same ⟨c', v, s', 1⟩ this.2.1 this.1

/-! ## C20: round trips -/

/-- Converting to any unit of the class and back is the identity, for pressures, lengths, times, energies, masses and
forces.  Missing from the full claim: inch, foot, mile and pound (see `C20_round_trip_false` and
`C20_round_trip_close_partial`), volumes and areas (`C20_volume_false`); temperatures are in
`C22_temperature_round_trip`. -/
theorem C20_round_trip_partial (c : UCls) (hc : c ∈ linearClasses) (s t : Sym) (hs : UnitOf c s) (ht : UnitOf c t)
    (hs' : s ∉ inexact) (ht' : t ∉ inexact) (v : ℝ) :
    ∃ u : UnitV ℝ, convertUnit stdTables ⟨c, v, s, 1⟩ t = .ok u ∧ u.unit = t ∧ u.cls = c ∧
      convertUnit stdTables u s = .ok ⟨c, v, s, 1⟩ := by
  by_cases hne : s = t
  · subst hne; exact ⟨_, hs.self hc v, rfl, rfl, hs.self hc v⟩
  · obtain ⟨a, b, h1, -, -, h2, -⟩ := hs.factors hc
    obtain ⟨a', b', h1', -, -, h2', -⟩ := ht.factors hc
    refine ⟨_, convertUnit_one hc h1 h1' hne v, rfl, rfl, ?_⟩
    rw [convertUnit_one hc h1' h1 (Ne.symm hne)]
    have e1 : (a : ℝ) * b = 1 := by exact_mod_cast h2 hs'
    have e2 : (a' : ℝ) * b' = 1 := by exact_mod_cast h2' ht'
    have : v * a * b' * a' * b = v * (a * b) * (a' * b') := by ring
    rw [this, e1, e2]; simp

example : UnitOf .pressure c!"atm" ∧ UnitOf .pressure c!"psi" ∧ c!"atm" ∉ inexact := by
  refine ⟨.inr ?_, .inr ?_, by decide⟩ <;>
  simp only [tableKeys, stdTables, pressureTable, List.map_cons, List.map_nil] <;> decide

/-- Converting in two steps is converting directly. -/
theorem C20_path_partial (c : UCls) (hc : c ∈ linearClasses) (s t r : Sym) (hs : UnitOf c s) (ht : UnitOf c t)
    (hr : UnitOf c r) (hst : s ≠ r) (ht' : t ∉ inexact) (v : ℝ) :
    ∃ u w : UnitV ℝ, convertUnit stdTables ⟨c, v, s, 1⟩ t = .ok u ∧ convertUnit stdTables u r = .ok w ∧
      convertUnit stdTables ⟨c, v, s, 1⟩ r = .ok w := by
  by_cases h1 : s = t
  · subst h1
    obtain ⟨a, b, h1, -⟩ := hs.factors hc
    obtain ⟨a', b', h1', -⟩ := hr.factors hc
    exact ⟨_, _, hs.self hc v, convertUnit_one hc h1 h1' hst v, convertUnit_one hc h1 h1' hst v⟩
  by_cases h2 : t = r
  · subst h2
    obtain ⟨a, b, e1, -⟩ := hs.factors hc
    obtain ⟨a', b', e1', -⟩ := ht.factors hc
    exact ⟨_, _, convertUnit_one hc e1 e1' h1 v, ht.self hc _, convertUnit_one hc e1 e1' h1 v⟩
  obtain ⟨a, b, e1, -⟩ := hs.factors hc
  obtain ⟨a', b', e2, -, -, h, -⟩ := ht.factors hc
  obtain ⟨a'', b'', e3, -⟩ := hr.factors hc
  refine ⟨_, _, convertUnit_one hc e1 e2 h1 v, convertUnit_one hc e2 e3 h2 _, ?_⟩
  rw [convertUnit_one hc e1 e3 hst v]
  have e : (a' : ℝ) * b' = 1 := by exact_mod_cast h ht'
  have : v * a * b' * a' * b'' = v * a * b'' * (a' * b') := by ring
  rw [this, e, mul_one]

example : UnitOf .length c!"ft" ∧ UnitOf .length c!"cm" ∧ UnitOf .length c!"in" ∧ c!"cm" ∉ inexact := by
  refine ⟨.inr ?_, .inr ?_, .inr ?_, by decide⟩ <;>
  simp only [tableKeys, stdTables, lengthTable, List.map_cons, List.map_nil] <;> decide

/-- With the inexact constants of inch, foot and pound a round trip still comes back within 1e-5 relative. -/
theorem C20_round_trip_close_partial (c : UCls) (hc : c ∈ linearClasses) (s t : Sym) (hs : UnitOf c s)
    (ht : UnitOf c t) (hs' : s ≠ c!"mile") (ht' : t ≠ c!"mile") (v : ℝ) :
    ∃ u w : UnitV ℝ, convertUnit stdTables ⟨c, v, s, 1⟩ t = .ok u ∧ convertUnit stdTables u s = .ok w ∧
      w.unit = s ∧ |w.value - v| ≤ |v| / 100000 := by
  by_cases hne : s = t
  · subst hne
    refine ⟨_, _, hs.self hc v, hs.self hc v, rfl, ?_⟩
    simp only [sub_self, abs_zero]; positivity
  · obtain ⟨a, b, h1, -, -, -, h2⟩ := hs.factors hc
    obtain ⟨a', b', h1', -, -, -, h2'⟩ := ht.factors hc
    refine ⟨_, _, convertUnit_one hc h1 h1' hne v, convertUnit_one hc h1' h1 (Ne.symm hne) _, rfl, ?_⟩
    have cast : ∀ x y : ℚ, |x * y - 1| ≤ 1 / 400000 → |(x : ℝ) * y - 1| ≤ 1 / 400000 := by
      intro x y h
      have h' : ((|x * y - 1| : ℚ) : ℝ) ≤ ((1 / 400000 : ℚ) : ℝ) := by exact_mod_cast h
      push_cast at h'; exact h'
    have e1 := cast a b (h2 hs')
    have e2 := cast a' b' (h2' ht')
    set p := (a : ℝ) * b - 1 with hp
    set q := (a' : ℝ) * b' - 1 with hq
    have e3 : v * a * b' * a' * b - v = v * (p + q + p * q) := by rw [hp, hq]; ring
    simp only [e3, abs_mul]
    have e4 : |p + q + p * q| ≤ 1 / 100000 := by
      have h5 : |p * q| ≤ 1 / 400000 * (1 / 400000) := by
        rw [abs_mul]; exact mul_le_mul e1 e2 (abs_nonneg _) (by norm_num)
      calc |p + q + p * q| ≤ |p| + |q| + |p * q| := by
            exact (abs_add_le _ _).trans (add_le_add (abs_add_le _ _) le_rfl)
        _ ≤ 1 / 400000 + 1 / 400000 + 1 / 400000 * (1 / 400000) := by linarith
        _ ≤ 1 / 100000 := by norm_num
    calc |v| * |p + q + p * q| ≤ |v| * (1 / 100000) := mul_le_mul_of_nonneg_left e4 (abs_nonneg _)
      _ = |v| / 100000 := by ring

/-- Full claim, false already for lengths: one metre to miles and back is not one metre (and not close). -/
theorem C20_round_trip_false : ¬ ∀ s t : Sym, UnitOf .length s → UnitOf .length t → ∀ v : ℝ, ∃ u w : UnitV ℝ,
    convertUnit stdTables ⟨.length, v, s, 1⟩ t = .ok u ∧ convertUnit stdTables u s = .ok w ∧ w.value = v := by
  intro h
  have hm : UnitOf .length c!"mile" := by
    right; simp only [tableKeys, stdTables, lengthTable, List.map_cons, List.map_nil]; decide
  obtain ⟨u, w, h1, h2, h3⟩ := h c!"m" c!"mile" (.inl rfl) hm 1
  have hc : UCls.length ∈ linearClasses := by decide
  have f1 : HasFactors .length c!"m" 1 1 := .inl ⟨rfl, rfl, rfl⟩
  have f2 : HasFactors .length c!"mile" (160934 / 100) (160934 / 100) := .inr (by decide +kernel)
  rw [convertUnit_one hc f1 f2 (by decide)] at h1
  cases h1
  rw [convertUnit_one hc f2 f1 (by decide)] at h2
  cases h2
  norm_num at h3

/-- Litres cannot be converted back from cubic metres. -/
theorem C20_volume_false : ¬ ∀ v : ℚ, ∃ u w : UnitV ℚ,
    convertUnit stdTables ⟨.volume, v, c!"L", 1⟩ c!"m^3" = .ok u ∧ convertUnit stdTables u c!"L" = .ok w := by
  intro h
  obtain ⟨u, w, h1, h2⟩ := h 1
  have e : convertUnit (stdTables (K := ℚ)) ⟨.volume, 1, c!"L", 1⟩ c!"m^3" =
      .ok ⟨.volume, 1 / 1000, c!"m", 3⟩ := by decide +kernel
  rw [e] at h1; cases h1
  have e2 : convertUnit (stdTables (K := ℚ)) ⟨.volume, 1 / 1000, c!"m", 3⟩ c!"L" = .error .unitConversion := by
    decide +kernel
  rw [e2] at h2; cases h2

/-! ## C21: sizes -/

theorem entries_sizes : ∀ e ∈ entries, e.2.1 ≠ c!"MPa" → ∃ q ∈ physSize e.2.1, 0 < q ∧ |e.2.2.1 - q| ≤ q / 10000 ∧
    (lookupSym e.2.1 published = none → e.2.2.1 = q) ∧
    (e.2.1 ≠ c!"mile" → |e.2.2.2 * q - 1| ≤ 1 / 10000) := by decide +kernel

/-- Conversion to the standard multiplies by the size of the unit: exact for SI prefixes, within 1e-4 for the published
constants.  All entries of the six linear tables but `MPa`; volumes and areas are missing (`C21_litre_false`). -/
theorem C21_to_standard_partial (c : UCls) (hc : c ∈ linearClasses) (s std : Sym) (hstd : standardOf c = some std)
    (hs : s ∈ tableKeys stdTables c) (hm : s ≠ c!"MPa") :
    ∃ a q : ℚ, q ∈ physSize s ∧ 0 < q ∧ |a - q| ≤ q / 10000 ∧ (lookupSym s published = none → a = q) ∧
      ∀ v : ℝ, convertUnit stdTables ⟨c, v, s, 1⟩ std = .ok ⟨c, v * a, std, 1⟩ := by
  obtain ⟨⟨c', s', a, b⟩, he, rfl, rfl⟩ := entries_complete c hc s hs
  obtain ⟨q, h1, h2, h3, h4, -⟩ := entries_sizes _ he hm
  refine ⟨a, q, h1, h2, h3, h4, fun v => ?_⟩
  have hne : s' ≠ std := by
    rintro rfl; exact (entries_facts _ he).2.2.2.1 hstd.symm
  rw [convertUnit_one hc (.inr he) (.inl ⟨hstd, rfl, rfl⟩) hne v]; simp

/-- The other direction divides by the size within 1e-4, `mile` excepted too. -/
theorem C21_from_standard_partial (c : UCls) (hc : c ∈ linearClasses) (s std : Sym) (hstd : standardOf c = some std)
    (hs : s ∈ tableKeys stdTables c) (hm : s ≠ c!"MPa") (hm' : s ≠ c!"mile") :
    ∃ b q : ℚ, q ∈ physSize s ∧ 0 < q ∧ |b * q - 1| ≤ 1 / 10000 ∧
      ∀ v : ℝ, convertUnit stdTables ⟨c, v, std, 1⟩ s = .ok ⟨c, v * b, s, 1⟩ := by
  obtain ⟨⟨c', s', a, b⟩, he, rfl, rfl⟩ := entries_complete c hc s hs
  obtain ⟨q, h1, h2, -, -, h5⟩ := entries_sizes _ he hm
  refine ⟨b, q, h1, h2, h5 hm', fun v => ?_⟩
  have hne : s' ≠ std := by
    rintro rfl; exact (entries_facts _ he).2.2.2.1 hstd.symm
  rw [convertUnit_one hc (.inl ⟨hstd, rfl, rfl⟩) (.inr he) (Ne.symm hne) v]; simp

example : standardOf .mass = some c!"kg" ∧ c!"lb" ∈ tableKeys stdTables .mass ∧
    physSize c!"lb" = some (45359237 / 100000000) ∧ physSize c!"dg" = some (1 / 10000) := by
  refine ⟨rfl, ?_, by decide +kernel, by decide +kernel⟩
  simp only [tableKeys, stdTables, massTable, List.map_cons, List.map_nil]; decide

/-- Full claim, false: a megapascal is converted to ten million pascal. -/
theorem C21_megapascal_false : ¬ ∀ s ∈ tableKeys stdTables .pressure, ∀ q ∈ physSize s, ∃ a : ℚ,
    |a - q| ≤ q / 10000 ∧ ∀ v : ℝ, convertUnit stdTables ⟨.pressure, v, s, 1⟩ c!"Pa" =
      .ok ⟨.pressure, v * a, c!"Pa", 1⟩ := by
  intro h
  obtain ⟨a, h1, h2⟩ := h c!"MPa" (by
    simp only [tableKeys, stdTables, pressureTable, List.map_cons, List.map_nil]; decide) (10 ^ 6) (by decide +kernel)
  have h3 := h2 1
  rw [convertUnit_one (c := .pressure) (by decide) (.inr (by decide +kernel : (UCls.pressure, c!"MPa", (10000000 : ℚ),
    (1 / 10000000 : ℚ)) ∈ entries)) (.inl ⟨rfl, rfl, rfl⟩) (by decide)] at h3
  simp only [Except.ok.injEq, UnitV.mk.injEq, true_and, and_true, one_mul, Rat.cast_one, mul_one] at h3
  have h4 : a = 10000000 := by exact_mod_cast h3.symm
  rw [h4] at h1
  norm_num at h1

/-- Full claim, false for litres as well: two litres become 0.008 cubic metres. -/
theorem C21_litre_false : ¬ ∃ a : ℚ, ∀ v : ℚ, ∃ u, convertUnit (stdTables (K := ℚ)) ⟨.volume, v, c!"L", 1⟩ c!"m^3" =
    .ok u ∧ u.value = v * a := by
  rintro ⟨a, h⟩
  obtain ⟨u, h1, h2⟩ := h 1
  obtain ⟨w, h3, h4⟩ := h 2
  have e1 : convertUnit (stdTables (K := ℚ)) ⟨.volume, 1, c!"L", 1⟩ c!"m^3" =
      .ok ⟨.volume, 1 / 1000, c!"m", 3⟩ := by decide +kernel
  have e2 : convertUnit (stdTables (K := ℚ)) ⟨.volume, 2, c!"L", 1⟩ c!"m^3" =
      .ok ⟨.volume, 8 / 1000, c!"m", 3⟩ := by decide +kernel
  rw [e1] at h1; cases h1
  rw [e2] at h3; cases h3
  simp only at h2 h4
  linarith

/-! ## C22: temperature -/

/-- Every conversion between two scales returns, and the reading it returns has the same thermodynamic temperature. -/
theorem C22_temperature_exact (s t : Scale) (v : ℝ) :
    ∃ v' : ℝ, convertUnit stdTables ⟨.temperature, v, s.sym, 1⟩ t.sym = .ok ⟨.temperature, v', t.sym, 1⟩ ∧
      t.kelvin v' = s.kelvin v := by
  have e : ∀ x : ℝ, (PyPow.pow x 1 : PyM ℝ) = .ok x := pow_real_one
  have lF : lookupTo (stdTables (K := ℝ)) .temperature c!"F" = .ok _ := rfl
  have lC : lookupTo (stdTables (K := ℝ)) .temperature c!"C" = .ok _ := rfl
  have lR : lookupTo (stdTables (K := ℝ)) .temperature c!"R" = .ok _ := rfl
  have gF : lookupFrom (stdTables (K := ℝ)) .temperature c!"F" = .ok _ := rfl
  have gC : lookupFrom (stdTables (K := ℝ)) .temperature c!"C" = .ok _ := rfl
  have gR : lookupFrom (stdTables (K := ℝ)) .temperature c!"R" = .ok _ := rfl
  cases s <;> cases t <;>
    simp only [convertUnit, parseTarget, Scale.sym, unitComposites, convertParsed, standardOf, applyConv, lF, lC, lR,
      gF, gC, gR, e, mkUnit, mulBy, divBy, List.mem_cons, List.not_mem_nil, List.cons.injEq,
      reduceCtorEq, and_true, and_false, or_false, not_false_eq_true, if_true, if_false, Char.reduceEq] <;>
    refine ⟨_, rfl, ?_⟩ <;> simp only [Scale.kelvin] <;> push_cast <;> ring

example : convertUnit (stdTables (K := ℚ)) ⟨.temperature, 212, c!"F", 1⟩ c!"C" = .ok ⟨.temperature, 100, c!"C", 1⟩ := by
  decide +kernel

theorem kelvin_strictMono (s : Scale) : StrictMono s.kelvin := by
  intro a b h
  cases s <;> simp only [Scale.kelvin] <;> linarith

/-- There and back is the identity. -/
theorem C22_temperature_round_trip (s t : Scale) (v : ℝ) :
    ∃ u, convertUnit stdTables ⟨.temperature, v, s.sym, 1⟩ t.sym = .ok u ∧
      convertUnit stdTables u s.sym = .ok ⟨.temperature, v, s.sym, 1⟩ := by
  obtain ⟨v', e1, h1⟩ := C22_temperature_exact s t v
  obtain ⟨v'', e2, h2⟩ := C22_temperature_exact t s v'
  refine ⟨_, e1, ?_⟩
  rw [e2]
  have : v'' = v := (kelvin_strictMono s).injective (h2.trans h1)
  rw [this]

/-- The path does not matter. -/
theorem C22_temperature_path (s t r : Scale) (v : ℝ) :
    ∃ u w, convertUnit stdTables ⟨.temperature, v, s.sym, 1⟩ t.sym = .ok u ∧
      convertUnit stdTables u r.sym = .ok w ∧ convertUnit stdTables ⟨.temperature, v, s.sym, 1⟩ r.sym = .ok w := by
  obtain ⟨v1, e1, h1⟩ := C22_temperature_exact s t v
  obtain ⟨v2, e2, h2⟩ := C22_temperature_exact t r v1
  obtain ⟨v3, e3, h3⟩ := C22_temperature_exact s r v
  refine ⟨_, _, e1, e2, ?_⟩
  rw [e3]
  have : v3 = v2 := (kelvin_strictMono r).injective (h3.trans (h1.symm.trans h2.symm))
  rw [this]

/-- Hotter stays hotter. -/
theorem C22_temperature_monotone (s t : Scale) (v w : ℝ) (h : v < w) :
    ∃ v' w', convertUnit stdTables ⟨.temperature, v, s.sym, 1⟩ t.sym = .ok ⟨.temperature, v', t.sym, 1⟩ ∧
      convertUnit stdTables ⟨.temperature, w, s.sym, 1⟩ t.sym = .ok ⟨.temperature, w', t.sym, 1⟩ ∧ v' < w' := by
  obtain ⟨v', e1, h1⟩ := C22_temperature_exact s t v
  obtain ⟨w', e2, h2⟩ := C22_temperature_exact s t w
  refine ⟨v', w', e1, e2, ?_⟩
  rw [← (kelvin_strictMono t).lt_iff_lt, h1, h2]
  exact kelvin_strictMono s h

/-- Absolute zero on the four scales. -/
theorem C22_absolute_zero (s t : Scale) :
    let zero : Scale → ℝ := fun | .K => 0 | .C => -273.15 | .R => 0 | .F => -459.67
    convertUnit stdTables ⟨.temperature, zero s, s.sym, 1⟩ t.sym = .ok ⟨.temperature, zero t, t.sym, 1⟩ := by
  intro zero
  obtain ⟨v', e1, h1⟩ := C22_temperature_exact s t (zero s)
  have hz : ∀ r : Scale, r.kelvin (zero r) = 0 := by
    intro r; cases r <;> simp only [Scale.kelvin, zero] <;> norm_num
  rw [e1, (kelvin_strictMono t).injective (h1.trans ((hz s).trans (hz t).symm))]

/-! ## C23: exponents -/

/-- Full claim, false: 5 m² become 250000 cm² (the power is applied to the value as well). -/
theorem C23_exponent_false : ¬ ∀ v : ℚ, ∃ u, convertUnit (stdTables (K := ℚ)) ⟨.length, v, c!"m", 2⟩ c!"cm^2" =
    .ok u ∧ u.value = v * 100 ^ 2 := by
  intro h
  obtain ⟨u, h1, h2⟩ := h 5
  have e : convertUnit (stdTables (K := ℚ)) ⟨.length, 5, c!"m", 2⟩ c!"cm^2" = .ok ⟨.length, 250000, c!"cm", 2⟩ := by
    decide +kernel
  rw [e] at h1; cases h1
  norm_num at h2

/-- Also false for value 1 between two units that are not the standard: the power is applied twice. -/
theorem C23_twice_false : ¬ ∃ u, convertUnit (stdTables (K := ℚ)) ⟨.length, 1, c!"km", 2⟩ c!"cm^2" =
    .ok u ∧ u.value = 100000 ^ 2 := by
  rintro ⟨u, h1, h2⟩
  have e : convertUnit (stdTables (K := ℚ)) ⟨.length, 1, c!"km", 2⟩ c!"cm^2" =
      .ok ⟨.length, 10000000000000000, c!"cm", 2⟩ := by decide +kernel
  rw [e] at h1; cases h1
  norm_num at h2

/-- A target without exponent turns a square into a length. -/
theorem C23_drops_exponent (v : ℝ) : convertUnit stdTables ⟨.length, v, c!"m", 2⟩ c!"cm" =
    .ok ⟨.length, v * 100, c!"cm", 1⟩ := by
  have h : HasFactors .length c!"cm" (1 / 100) 100 := .inr (by decide +kernel)
  unfold convertUnit
  rw [parseTarget_plain (s := c!"m") (by decide) (by decide)]
  simp only
  rcases h with ⟨h, -⟩ | h
  · cases h
  · rw [convertParsed_from h rfl v 2 1 (pow_real_one _)]; simp

/-- What does hold: for value one and a standard unit on one side, conversion with any decimal exponent gives the power
of the unit ratio, and keeps class, unit and exponent.  Missing: other values (`C23_exponent_false`) and pairs of
nonstandard units (`C23_twice_false`). -/
theorem C23_value_one_partial (c : UCls) (hc : c ∈ linearClasses) (s std : Sym) (hstd : standardOf c = some std)
    (hs : s ∈ tableKeys stdTables c) (d : DecLit) (hd : d.int ≠ []) :
    ∃ a b : ℚ, (∀ v : ℝ, convertUnit stdTables ⟨c, v, s, 1⟩ std = .ok ⟨c, v * a, std, 1⟩) ∧
      (∀ v : ℝ, convertUnit stdTables ⟨c, v, std, 1⟩ s = .ok ⟨c, v * b, s, 1⟩) ∧
      convertUnit stdTables ⟨c, 1, s, d.value⟩ (std ++ '^' :: d.text) =
        .ok ⟨c, (a : ℝ) ^ (d.value : ℝ), std, d.value⟩ ∧
      convertUnit stdTables ⟨c, 1, std, d.value⟩ (s ++ '^' :: d.text) =
        .ok ⟨c, (b : ℝ) ^ (d.value : ℝ), s, d.value⟩ := by
  obtain ⟨⟨c', s', a, b⟩, he, rfl, rfl⟩ := entries_complete c hc s hs
  have hf := entries_facts _ he
  obtain ⟨std', hs', n1, n2, -⟩ := standard_facts c' hc
  rw [hstd] at hs'; cases hs'
  have hne : s' ≠ std := by rintro rfl; exact hf.2.2.2.1 hstd.symm
  have ha : (0 : ℝ) < a := by exact_mod_cast hf.2.2.2.2.2.2.1
  have hb : (0 : ℝ) < b := by exact_mod_cast hf.2.2.2.2.2.2.2
  refine ⟨a, b, fun v => ?_, fun v => ?_, ?_, ?_⟩
  · rw [convertUnit_one hc (.inr he) (.inl ⟨hstd, rfl, rfl⟩) hne v]; simp
  · rw [convertUnit_one hc (.inl ⟨hstd, rfl, rfl⟩) (.inr he) (Ne.symm hne) v]; simp
  · unfold convertUnit
    rw [parseTarget_exp hf.2.1 n1 d hd]
    exact convertParsed_to he hstd 1 _ _ (by rw [one_mul]; exact pow_real_pos ha _)
  · unfold convertUnit
    rw [parseTarget_exp n2 hf.1 d hd]
    exact convertParsed_from he hstd 1 _ _ (by rw [one_mul]; exact pow_real_pos hb _)

example : convertUnit (stdTables (K := ℚ)) ⟨.length, 1, c!"cm", 3⟩ c!"m^3" =
    .ok ⟨.length, 1 / 1000000, c!"m", 3⟩ := by decide +kernel

end Verif
