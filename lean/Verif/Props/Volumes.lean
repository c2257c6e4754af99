import Verif.Lemmas.ConvertCast
import Verif.Props.SimpleConv

/-! # C20, C21: volumes and areas

The classes `Volume` and `Area` have conversion tables of roots of sizes, meant to be raised to the exponent of the target.
Here is what their conversions do, for every pair of units the tables list. -/

namespace Verif

/-! ## Volumes -/

/-- The names written as cubes, with what the constructor makes of them. -/
def cubes : List (Sym × Sym) :=
  [(c!"m^3", c!"m"), (c!"um^3", c!"um"), (c!"mm^3", c!"mm"), (c!"cm^3", c!"cm"), (c!"dm^3", c!"dm"), (c!"km^3", c!"km"),
   (c!"ft^3", c!"ft")]

/-- The litres with a prefix and the gallon, with the factors in the two tables (units.py:1390-1420). -/
def prefixedLitres : List (Sym × ℚ × ℚ) :=
  [(c!"uL", 1000, 1 / 1000), (c!"mL", 1 / 100, 100), (c!"cL", 100000 / 4641588, 4641588 / 100000),
   (c!"dL", 1000000 / 21544346, 21544346 / 1000000), (c!"kL", 1, 1), (c!"gal", 454609 / 100000000, 100000000 / 454609)]

def litreNames : List Sym := [c!"uL", c!"mL", c!"cL", c!"dL", c!"kL", c!"gal"]

/-- Sizes in cubic metres (the gallon of the library is the imperial one). -/
def volumeSize (s : Sym) : ℚ :=
  match lookupSym s [(c!"m^3", 1), (c!"um^3", 1 / 1000000000000000000), (c!"mm^3", 1 / 1000000000), (c!"cm^3", 1 / 1000000),
    (c!"dm^3", 1 / 1000), (c!"km^3", 1000000000), (c!"ft^3", (3048 / 10000) ^ 3), (c!"uL", 1 / 1000000000), (c!"mL", 1 / 1000000),
    (c!"cL", 1 / 100000), (c!"dL", 1 / 10000), (c!"L", 1 / 1000), (c!"kL", 1), (c!"gal", 454609 / 100000000)] with
  | some q => q
  | none => 0

theorem volume_names (s : Sym) (h : UnitOf .volume s) :
    s = c!"L" ∨ (∃ b, (s, b) ∈ cubes) ∨ ∃ a b, (s, a, b) ∈ prefixedLitres := by
  simp only [UnitOf, standardOf, Option.some.injEq, tableKeys, stdTables, volumeTable, List.map_cons, List.map_nil,
    List.mem_cons, List.not_mem_nil, or_false] at h
  have key : ∀ s ∈ [c!"m^3", c!"uL", c!"mL", c!"cL", c!"dL", c!"kL", c!"L", c!"um^3", c!"mm^3", c!"cm^3", c!"dm^3", c!"km^3",
      c!"ft^3", c!"gal"], s = c!"L" ∨ s ∈ cubes.map (·.1) ∨ s ∈ prefixedLitres.map (·.1) := by decide +kernel
  have := key s (by simp only [List.mem_cons, List.not_mem_nil, or_false]; tauto)
  rcases this with h | h | h
  · exact .inl h
  · obtain ⟨⟨x, y⟩, h1, rfl⟩ := List.mem_map.1 h; exact .inr (.inl ⟨y, h1⟩)
  · obtain ⟨⟨x, y, z⟩, h1, rfl⟩ := List.mem_map.1 h; exact .inr (.inr ⟨y, z, h1⟩)

theorem cubes_facts : ∀ p ∈ cubes, '^' ∈ p.1 ∧ splitOn '^' p.1 = [p.2, c!"3"] ∧ p.2 ∉ unitComposites ∧ '^' ∉ p.2 ∧
    p.2 ≠ c!"m^3" ∧ p.2 ∉ litreNames ∧ p.2 ≠ c!"L" ∧ p.1 ∉ litreNames ∧ p.1 ≠ c!"L" := by decide +kernel

theorem litres_facts : ∀ p ∈ prefixedLitres, '^' ∉ p.1 ∧ p.1 ∉ unitComposites ∧ p.1 ≠ c!"m^3" ∧ p.1 ∈ litreNames ∧
    p.1 ≠ c!"L" ∧ p.2.1 * p.2.2 = 1 := by decide +kernel

theorem pyFloat_three : pyFloat c!"3" = .ok 3 := by decide +kernel

theorem mkVolume_cube {p : Sym × Sym} (h : p ∈ cubes) {K : Type} (v : K) (e : ℚ) :
    mkUnit .volume v p.1 e = .ok ⟨.volume, v, p.2, 3⟩ := by
  obtain ⟨h1, h2, -⟩ := cubes_facts p h
  simp only [mkUnit, h1, if_true, h2, pyFloat_three]

theorem mkVolume_plain {s : Sym} (h : '^' ∉ s) {K : Type} (v : K) (e : ℚ) :
    mkUnit .volume v s e = .ok ⟨.volume, v, s, e⟩ := by
  simp only [mkUnit, h, if_false]

theorem litres_lookup : ∀ p ∈ prefixedLitres, ∃ f g : Conv ℝ, lookupTo stdTables .volume p.1 = .ok f ∧
    lookupFrom stdTables .volume p.1 = .ok g ∧ (∀ x, f x = .ok (x * p.2.1)) ∧ ∀ x, g x = .ok (x * p.2.2) := by
  simp only [prefixedLitres, List.forall_mem_cons, List.not_mem_nil, false_imp_iff, implies_true, and_true]
  refine ⟨⟨_, _, rfl, rfl, ?_, ?_⟩, ⟨_, _, rfl, rfl, ?_, ?_⟩, ⟨_, _, rfl, rfl, ?_, ?_⟩, ⟨_, _, rfl, rfl, ?_, ?_⟩,
    ⟨_, _, rfl, rfl, ?_, ?_⟩, ⟨_, _, rfl, rfl, ?_, ?_⟩⟩ <;> intro x <;>
  simp only [divBy, mulBy, Except.ok.injEq] <;> push_cast <;> ring

theorem cubes_lookup : ∀ p ∈ cubes, lookupTo (stdTables (K := ℝ)) .volume p.2 = .error .keyError ∧
    lookupFrom (stdTables (K := ℝ)) .volume p.2 = .error .keyError := by
  simp only [cubes, List.forall_mem_cons, List.not_mem_nil, false_imp_iff, implies_true, and_true]
  exact ⟨⟨rfl, rfl⟩, ⟨rfl, rfl⟩, ⟨rfl, rfl⟩, ⟨rfl, rfl⟩, ⟨rfl, rfl⟩, ⟨rfl, rfl⟩, ⟨rfl, rfl⟩⟩

/-- Between prefixed litres (and gallons) the conversion is linear, with the factors of the two tables. -/
theorem convert_litres {p q : Sym × ℚ × ℚ} (hp : p ∈ prefixedLitres) (hq : q ∈ prefixedLitres) (hne : p.1 ≠ q.1) (v : ℝ) :
    convertUnit stdTables ⟨.volume, v, p.1, 1⟩ q.1 = .ok ⟨.volume, v * p.2.1 * q.2.2, q.1, 1⟩ := by
  obtain ⟨-, p2, p3, -⟩ := litres_facts p hp
  obtain ⟨q1, -, q3, -⟩ := litres_facts q hq
  obtain ⟨f, -, f1, -, f2, -⟩ := litres_lookup p hp
  obtain ⟨-, g, -, g1, -, g2⟩ := litres_lookup q hq
  rw [convertUnit, parseTarget_plain p2 q1]
  simp only [convertParsed, hne, if_false, standardOf, p3, q3, f1, g1, applyConv, f2, g2, pow_real_one, mkVolume_plain q1]

theorem convert_to_litre {p : Sym × ℚ × ℚ} (hp : p ∈ prefixedLitres) (v : ℝ) :
    convertUnit stdTables ⟨.volume, v, p.1, 1⟩ c!"L" = .ok ⟨.volume, v * p.2.1 * 10, c!"L", 1⟩ := by
  obtain ⟨-, p2, p3, -, p5, -⟩ := litres_facts p hp
  obtain ⟨f, -, f1, -, f2, -⟩ := litres_lookup p hp
  rw [convertUnit, parseTarget_plain p2 (by decide)]
  have hL : lookupFrom (stdTables (K := ℝ)) .volume c!"L" = .ok (mulBy 10) := rfl
  simp only [convertParsed, p5, if_false, standardOf, p3, show c!"L" ≠ c!"m^3" by decide, f1, hL, applyConv, f2, pow_real_one,
    mkVolume_plain (show '^' ∉ c!"L" by decide), mulBy]
  norm_num

/-- A litre with a prefix cannot be converted to a cube: the target is looked up without its exponent. -/
theorem convert_litre_cube {p : Sym × ℚ × ℚ} {q : Sym × Sym} (hp : p ∈ prefixedLitres) (hq : q ∈ cubes) (v : ℝ) :
    convertUnit stdTables ⟨.volume, v, p.1, 1⟩ q.1 = .error .keyError := by
  obtain ⟨-, p2, p3, p4, -⟩ := litres_facts p hp
  obtain ⟨q1, q2, -, -, q5, q6, -⟩ := cubes_facts q hq
  obtain ⟨f, -, f1, -, f2, -⟩ := litres_lookup p hp
  have hne : p.1 ≠ q.2 := fun h => q6 (h ▸ p4)
  simp only [convertUnit, parseTarget, q1, p2, not_false_eq_true, and_self, if_true, q2, pyFloat_three, convertParsed, hne,
    if_false, standardOf, q5, p3, f1, applyConv, f2, pow_real_three, (cubes_lookup q hq).2]

/-- A cube can be converted to nothing else: the unit of the object is the root, which is in no table. -/
theorem convert_cube {p : Sym × Sym} (hp : p ∈ cubes) {t tgt ret : Sym} {e : ℚ} (ht : parseTarget p.2 t = .ok (tgt, ret, e))
    (hne : p.2 ≠ tgt) (hs : tgt ≠ c!"m^3") (v : ℝ) :
    convertUnit stdTables ⟨.volume, v, p.2, 3⟩ t = .error .unitConversion := by
  obtain ⟨-, -, -, -, p5, -⟩ := cubes_facts p hp
  simp only [convertUnit, ht, convertParsed, hne, if_false, standardOf, hs, p5, (cubes_lookup p hp).1, applyConv]

theorem convert_cubes {p q : Sym × Sym} (hp : p ∈ cubes) (hq : q ∈ cubes) (hne : p.2 ≠ q.2) (v : ℝ) :
    convertUnit stdTables ⟨.volume, v, p.2, 3⟩ q.1 = .error .unitConversion := by
  obtain ⟨q1, q2, -, -, q5, -⟩ := cubes_facts q hq
  obtain ⟨-, -, p3, -⟩ := cubes_facts p hp
  exact convert_cube hp (tgt := q.2) (ret := q.2) (e := 3)
    (by simp only [parseTarget, q1, p3, not_false_eq_true, and_self, if_true, q2, pyFloat_three]) hne q5 v

theorem convert_cube_plain {p : Sym × Sym} (hp : p ∈ cubes) {t : Sym} (ht : '^' ∉ t) (hne : p.2 ≠ t) (v : ℝ) :
    convertUnit stdTables ⟨.volume, v, p.2, 3⟩ t = .error .unitConversion := by
  obtain ⟨-, -, p3, -⟩ := cubes_facts p hp
  exact convert_cube hp (parseTarget_plain p3 ht) hne (by rintro rfl; revert ht; decide) v

/-- A litre without prefix can be converted to cubes only; the conversion to litres raises as well. -/
theorem convert_litre_plain {t : Sym} (ht : '^' ∉ t) (v : ℝ) (e : ℚ) :
    convertUnit stdTables ⟨.volume, v, c!"L", e⟩ t = .error .valueError := by
  rw [convertUnit, parseTarget, if_neg (by simp [ht]), if_pos (show c!"L" ∈ unitComposites by decide), splitOn_none ht]

/-- The same cube. -/
theorem convert_cube_self {p : Sym × Sym} (hp : p ∈ cubes) (v : ℝ) :
    convertUnit stdTables ⟨.volume, v, p.2, 3⟩ p.1 = .ok ⟨.volume, v, p.2, 3⟩ := by
  obtain ⟨q1, q2, p3, -⟩ := cubes_facts p hp
  simp only [convertUnit, parseTarget, q1, p3, not_false_eq_true, and_self, if_true, q2, pyFloat_three, convertParsed]

/-- What a litre turned into: the unit is the root of the target. -/
theorem convert_litre_units {q : Sym × Sym} (hq : q ∈ cubes) {v : ℝ} {u : UnitV ℝ}
    (h : convertUnit stdTables ⟨.volume, v, c!"L", 1⟩ q.1 = .ok u) : u.cls = .volume ∧ u.unit = q.2 ∧ u.exp = 3 := by
  obtain ⟨q1, q2, -, q4, q5, -, q7, -, q9⟩ := cubes_facts q hq
  simp only [convertUnit, parseTarget, show c!"L" ∈ unitComposites by decide, not_true_eq_false, and_false, if_false, if_true,
    q2, pyFloat_three, convertParsed, q9.symm, standardOf, show ¬ c!"L" = c!"m^3" by decide, mkVolume_plain q4] at h
  repeat' split at h
  all_goals first | (cases h; done) | (cases h; exact ⟨rfl, rfl, rfl⟩)

/-- Which round trips of volumes there are: converting a volume to another unit and back restores it if and only if both
units are among uL, mL, cL, dL, kL and gal, or they are the same and not the litre. -/
theorem C20_volume_exact (s t : Sym) (hs : UnitOf .volume s) (ht : UnitOf .volume t) (v : ℝ) :
    (∃ m u : UnitV ℝ, mkUnit .volume v s 1 = .ok m ∧ convertUnit stdTables m t = .ok u ∧ convertUnit stdTables u s = .ok m) ↔
      (s = t ∧ s ≠ c!"L") ∨ (s ∈ litreNames ∧ t ∈ litreNames) := by
  rcases volume_names s hs with rfl | ⟨p2, hp⟩ | ⟨a, b, hp⟩
  · have hL : c!"L" ∉ litreNames := by decide
    simp only [hL, false_and, or_false, ne_eq, not_true_eq_false, and_false, iff_false]
    rintro ⟨m, u, h1, h2, h3⟩
    rw [mkVolume_plain (by decide)] at h1
    cases h1
    rcases volume_names t ht with rfl | ⟨q2, hq⟩ | ⟨a, b, hq⟩
    · rw [convert_litre_plain (by decide)] at h2; cases h2
    · obtain ⟨k1, k2, k3⟩ := convert_litre_units hq h2
      obtain ⟨uc, uv, us, ue⟩ := u
      simp only at k1 k2 k3
      subst k1 k2 k3
      have f := cubes_facts _ hq
      rw [convert_cube_plain hq (by decide) f.2.2.2.2.2.2.1] at h3
      cases h3
    · rw [convert_litre_plain (litres_facts _ hq).1] at h2; cases h2
  · have f := cubes_facts _ hp
    have e1 := mkVolume_cube hp v 1
    simp only at e1 f
    simp only [f.2.2.2.2.2.2.2.1, false_and, or_false, ne_eq, f.2.2.2.2.2.2.2.2, not_false_eq_true, and_true]
    constructor
    · rintro ⟨m, u, h1, h2, h3⟩
      rw [e1] at h1; cases h1
      rcases volume_names t ht with rfl | ⟨q2, hq⟩ | ⟨a, b, hq⟩
      · rw [convert_cube_plain hp (by decide) f.2.2.2.2.2.2.1] at h2; cases h2
      · by_cases hne : p2 = q2
        · subst hne
          have g := (cubes_facts _ hq).2.1
          have : ∀ p ∈ cubes, ∀ q ∈ cubes, p.2 = q.2 → p.1 = q.1 := by decide +kernel
          exact this _ hp _ hq rfl
        · rw [convert_cubes hp hq hne] at h2; cases h2
      · have g := litres_facts _ hq
        rw [convert_cube_plain hp g.1 (fun h => f.2.2.2.2.2.1 (by rw [show p2 = t from h]; exact g.2.2.2.1))] at h2; cases h2
    · rintro rfl
      exact ⟨_, _, e1, convert_cube_self hp v, convert_cube_self hp v⟩
  · have f := litres_facts _ hp
    have e1 := mkVolume_plain f.1 v 1
    simp only at e1 f
    simp only [f.2.2.2.1, true_and, ne_eq, f.2.2.2.2.1, not_false_eq_true, and_true]
    constructor
    · rintro ⟨m, u, h1, h2, h3⟩
      rw [e1] at h1; cases h1
      rcases volume_names t ht with rfl | ⟨q2, hq⟩ | ⟨a', b', hq⟩
      · rw [convert_to_litre hp] at h2; cases h2
        rw [convert_litre_plain f.1] at h3; cases h3
      · rw [convert_litre_cube hp hq] at h2; cases h2
      · exact .inr (litres_facts _ hq).2.2.2.1
    · intro h
      have same : convertUnit stdTables ⟨.volume, v, s, 1⟩ s = .ok ⟨.volume, v, s, 1⟩ := convertUnit_same ⟨.volume, v, s, 1⟩ f.2.1 f.1
      by_cases hst : s = t
      · subst hst; exact ⟨_, _, e1, same, same⟩
      · have ht' : t ∈ litreNames := by rcases h with h | h; exacts [absurd h hst, h]
        rcases volume_names t ht with rfl | ⟨q2, hq⟩ | ⟨a', b', hq⟩
        · exact absurd ht' (by decide)
        · exact absurd ht' (cubes_facts _ hq).2.2.2.2.2.2.2.1
        · have g := litres_facts _ hq
          simp only at g
          refine ⟨_, _, e1, convert_litres hp hq hst v, ?_⟩
          rw [convert_litres hq hp (Ne.symm hst)]
          have w1 : (a : ℝ) * b = 1 := by exact_mod_cast f.2.2.2.2.2
          have w2 : (a' : ℝ) * b' = 1 := by exact_mod_cast g.2.2.2.2.2
          have : v * (a : ℝ) * b' * a' * b = v * (a * b) * (a' * b') := by ring
          simp only [this, w1, w2, mul_one]

example : UnitOf .volume c!"L" ∧ UnitOf .volume c!"cm^3" ∧ UnitOf .volume c!"gal" := by
  refine ⟨.inr ?_, .inr ?_, .inr ?_⟩ <;>
  simp only [tableKeys, stdTables, volumeTable, List.map_cons, List.map_nil] <;> decide

/-- Ratios of the factors of two prefixed litres. -/
theorem litres_sizes : ∀ p ∈ prefixedLitres, ∀ q ∈ prefixedLitres, p.1 ≠ q.1 →
    (|p.2.1 * q.2.2 * volumeSize q.1 - volumeSize p.1| ≤ volumeSize p.1 / 10000 ↔
      (p.1, q.1) ∈ [(c!"kL", c!"gal"), (c!"gal", c!"kL")]) := by decide +kernel

theorem litres_to_litre : ∀ p ∈ prefixedLitres,
    ¬ |p.2.1 * 10 * volumeSize c!"L" - volumeSize p.1| ≤ volumeSize p.1 / 10000 := by decide +kernel

/-- Two litres, converted to the cubes. -/
theorem litre_cubes : ∀ q ∈ cubes, ∃ w : ℚ, convertUnit (stdTables (K := ℚ)) ⟨.volume, 2, c!"L", 1⟩ q.1 = .ok ⟨.volume, w, q.2, 3⟩ ∧
    ¬ |w * volumeSize q.1 - 2 * volumeSize c!"L"| ≤ 2 * volumeSize c!"L" / 10000 := by
  have key : ∀ q ∈ cubes, (match convertUnit (stdTables (K := ℚ)) ⟨.volume, 2, c!"L", 1⟩ q.1 with
      | .ok u => decide (u = ⟨.volume, u.value, q.2, 3⟩ ∧
          ¬ |u.value * volumeSize q.1 - 2 * volumeSize c!"L"| ≤ 2 * volumeSize c!"L" / 10000)
      | .error _ => false) = true := by decide +kernel
  intro q hq
  have := key q hq
  split at this
  · next u e => rw [decide_eq_true_eq] at this; exact ⟨u.value, by rw [e, ← this.1], this.2⟩
  · cases this

/-- Which conversions of volumes are right: `Volume(v, s).convert_to(t)` returns the volume, within 1e-4, for all positive
values if and only if the units are the same and not the litre, or they are the kilolitre and the (imperial) gallon. -/
theorem C21_volume_exact (s t : Sym) (hs : UnitOf .volume s) (ht : UnitOf .volume t) :
    (∀ v : ℝ, 0 < v → ∃ m u : UnitV ℝ, mkUnit .volume v s 1 = .ok m ∧ convertUnit stdTables m t = .ok u ∧
      mkUnit .volume u.value t 1 = .ok u ∧
      |u.value * (volumeSize t : ℝ) - v * (volumeSize s : ℝ)| ≤ v * (volumeSize s : ℝ) / 10000) ↔
      (s = t ∧ s ≠ c!"L") ∨ (s, t) ∈ [(c!"kL", c!"gal"), (c!"gal", c!"kL")] := by
  have small : ∀ x : ℝ, 0 < x → ∀ q : ℚ, 0 ≤ q → |x * (q : ℝ) - x * (q : ℝ)| ≤ x * (q : ℝ) / 10000 := by
    intro x hx q hq
    have : (0 : ℝ) ≤ q := by exact_mod_cast hq
    rw [sub_self, abs_zero]; positivity
  rcases volume_names s hs with rfl | ⟨p2, hp⟩ | ⟨a, b, hp⟩
  · have hL : (c!"L", t) ∉ [(c!"kL", c!"gal"), (c!"gal", c!"kL")] := by simp
    simp only [hL, or_false, ne_eq, not_true_eq_false, and_false, iff_false]
    intro h
    obtain ⟨m, u, h1, h2, -, h4⟩ := h 2 (by norm_num)
    rw [mkVolume_plain (by decide)] at h1
    cases h1
    rcases volume_names t ht with rfl | ⟨q2, hq⟩ | ⟨a, b, hq⟩
    · rw [convert_litre_plain (by decide)] at h2; cases h2
    · obtain ⟨w, e, hw⟩ := litre_cubes _ hq
      have e' := convertUnit_cast e
      simp only [UnitV.cast, Rat.cast_ofNat] at e'
      rw [e'] at h2
      cases h2
      refine hw ?_
      simp only at h4 ⊢
      exact_mod_cast h4
    · rw [convert_litre_plain (litres_facts _ hq).1] at h2; cases h2
  · have f := cubes_facts _ hp
    have e1 : ∀ v : ℝ, mkUnit .volume v s 1 = .ok ⟨.volume, v, p2, 3⟩ := fun v => mkVolume_cube hp v 1
    simp only at f
    have hn : (s, t) ∉ [(c!"kL", c!"gal"), (c!"gal", c!"kL")] := by
      intro h
      refine f.2.2.2.2.2.2.2.1 ?_
      simp only [List.mem_cons, Prod.mk.injEq, List.not_mem_nil, or_false] at h
      rcases h with ⟨rfl, -⟩ | ⟨rfl, -⟩ <;> decide
    simp only [hn, or_false, ne_eq, f.2.2.2.2.2.2.2.2, not_false_eq_true, and_true]
    constructor
    · intro h
      obtain ⟨m, u, h1, h2, -, -⟩ := h 1 (by norm_num)
      rw [e1] at h1; cases h1
      rcases volume_names t ht with rfl | ⟨q2, hq⟩ | ⟨a, b, hq⟩
      · rw [convert_cube_plain hp (by decide) f.2.2.2.2.2.2.1] at h2; cases h2
      · by_cases hne : p2 = q2
        · subst hne
          have : ∀ p ∈ cubes, ∀ q ∈ cubes, p.2 = q.2 → p.1 = q.1 := by decide +kernel
          exact this _ hp _ hq rfl
        · rw [convert_cubes hp hq hne] at h2; cases h2
      · have g := litres_facts _ hq
        rw [convert_cube_plain hp g.1 (fun h => f.2.2.2.2.2.1 (by rw [show p2 = t from h]; exact g.2.2.2.1))] at h2; cases h2
    · rintro rfl v hv
      exact ⟨_, _, e1 v, convert_cube_self hp v, e1 v, small v hv _ (by
        have : ∀ p ∈ cubes, 0 ≤ volumeSize p.1 := by decide +kernel
        exact this _ hp)⟩
  · have f := litres_facts _ hp
    have e1 : ∀ v : ℝ, mkUnit .volume v s 1 = .ok ⟨.volume, v, s, 1⟩ := fun v => mkVolume_plain f.1 v 1
    simp only at f
    have pos : ∀ p ∈ prefixedLitres, 0 < volumeSize p.1 := by decide +kernel
    simp only [ne_eq, f.2.2.2.2.1, not_false_eq_true, and_true]
    by_cases hst : s = t
    · subst hst
      simp only [true_or, iff_true]
      have same : ∀ v : ℝ, convertUnit stdTables ⟨.volume, v, s, 1⟩ s = .ok ⟨.volume, v, s, 1⟩ :=
        fun v => convertUnit_same ⟨.volume, v, s, 1⟩ f.2.1 f.1
      exact fun v hv => ⟨_, _, e1 v, same v, e1 v, small v hv _ (pos _ hp).le⟩
    · simp only [hst, false_or]
      rcases volume_names t ht with rfl | ⟨q2, hq⟩ | ⟨a', b', hq⟩
      · constructor
        · intro h
          obtain ⟨m, u, h1, h2, -, h4⟩ := h 1 (by norm_num)
          rw [e1] at h1; cases h1
          rw [convert_to_litre hp] at h2; cases h2
          refine absurd ?_ (litres_to_litre _ hp)
          simp only [one_mul] at h4 ⊢
          exact_mod_cast h4
        · intro h; simp at h
      · constructor
        · intro h
          obtain ⟨m, u, h1, h2, -, -⟩ := h 1 (by norm_num)
          rw [e1] at h1; cases h1
          rw [convert_litre_cube hp hq] at h2; cases h2
        · intro h
          have g := (cubes_facts _ hq).2.2.2.2.2.2.2.1
          simp only at g
          refine absurd ?_ g
          simp only [List.mem_cons, Prod.mk.injEq, List.not_mem_nil, or_false] at h
          rcases h with ⟨-, rfl⟩ | ⟨-, rfl⟩ <;> decide
      · have key := litres_sizes _ hp _ hq hst
        simp only at key
        rw [← key]
        constructor
        · intro h
          obtain ⟨m, u, h1, h2, -, h4⟩ := h 1 (by norm_num)
          rw [e1] at h1; cases h1
          rw [convert_litres hp hq hst] at h2; cases h2
          simp only [one_mul] at h4
          exact_mod_cast h4
        · intro h v hv
          refine ⟨_, _, e1 v, convert_litres hp hq hst v, mkVolume_plain (litres_facts _ hq).1 _ 1, ?_⟩
          have h' : |(a : ℝ) * b' * (volumeSize t : ℝ) - (volumeSize s : ℝ)| ≤ (volumeSize s : ℝ) / 10000 := by exact_mod_cast h
          have : v * (a : ℝ) * b' * (volumeSize t : ℝ) - v * (volumeSize s : ℝ) =
              v * ((a : ℝ) * b' * (volumeSize t : ℝ) - (volumeSize s : ℝ)) := by ring
          simp only [this, abs_mul, abs_of_pos hv, mul_div_assoc]
          exact mul_le_mul_of_nonneg_left h' hv.le

/-! ## Areas -/

/-- The names written as squares. -/
def squares : List (Sym × Sym) := [(c!"m^2", c!"m"), (c!"in^2", c!"in"), (c!"ft^2", c!"ft"), (c!"mile^2", c!"mile")]

/-- Sizes in square metres; the value of the table for the acre. -/
def areaSize (s : Sym) : ℚ :=
  match lookupSym s [(c!"m^2", 1), (c!"in^2", (254 / 10000) ^ 2), (c!"ft^2", (3048 / 10000) ^ 2), (c!"mile^2", (1609344 / 1000) ^ 2),
    (c!"acre", 4046873 / 1000)] with
  | some q => q
  | none => 0

theorem area_names (s : Sym) (h : UnitOf .area s) : s = c!"acre" ∨ ∃ b, (s, b) ∈ squares := by
  simp only [UnitOf, standardOf, Option.some.injEq, tableKeys, stdTables, areaTable, List.map_cons, List.map_nil,
    List.mem_cons, List.not_mem_nil, or_false] at h
  have key : ∀ s ∈ [c!"m^2", c!"acre", c!"in^2", c!"ft^2", c!"mile^2"], s = c!"acre" ∨ s ∈ squares.map (·.1) := by
    decide +kernel
  rcases key s (by simp only [List.mem_cons, List.not_mem_nil, or_false]; tauto) with h | h
  · exact .inl h
  · obtain ⟨⟨x, y⟩, h1, rfl⟩ := List.mem_map.1 h; exact .inr ⟨y, h1⟩

theorem squares_facts : ∀ p ∈ squares, '^' ∈ p.1 ∧ splitOn '^' p.1 = [p.2, c!"2"] ∧ p.2 ∉ unitComposites ∧ '^' ∉ p.2 ∧
    p.2 ≠ c!"m^2" ∧ p.2 ≠ c!"acre" ∧ p.1 ≠ c!"acre" ∧ 0 < areaSize p.1 := by decide +kernel

theorem pyFloat_two : pyFloat c!"2" = .ok 2 := by decide +kernel

theorem mkArea_square {p : Sym × Sym} (h : p ∈ squares) {K : Type} (v : K) (e : ℚ) :
    mkUnit .area v p.1 e = .ok ⟨.area, v, p.2, 2⟩ := by
  obtain ⟨h1, h2, -⟩ := squares_facts p h
  simp only [mkUnit, h1, if_true, h2, pyFloat_two]

theorem mkArea_plain {s : Sym} (h : '^' ∉ s) {K : Type} (v : K) (e : ℚ) : mkUnit .area v s e = .ok ⟨.area, v, s, e⟩ := by
  simp only [mkUnit, h, if_false]

theorem squares_lookup : ∀ p ∈ squares, lookupTo (stdTables (K := ℝ)) .area p.2 = .error .keyError := by
  simp only [squares, List.forall_mem_cons, List.not_mem_nil, false_imp_iff, implies_true, and_true]
  exact ⟨rfl, rfl, rfl, rfl⟩

/-- A square can be converted to nothing else. -/
theorem convert_square {p : Sym × Sym} (hp : p ∈ squares) {t tgt ret : Sym} {e : ℚ} (ht : parseTarget p.2 t = .ok (tgt, ret, e))
    (hne : p.2 ≠ tgt) (hs : tgt ≠ c!"m^2") (v : ℝ) :
    convertUnit stdTables ⟨.area, v, p.2, 2⟩ t = .error .unitConversion := by
  obtain ⟨-, -, -, -, p5, -⟩ := squares_facts p hp
  simp only [convertUnit, ht, convertParsed, hne, if_false, standardOf, hs, p5, squares_lookup p hp, applyConv]

theorem parse_square {p q : Sym × Sym} (hp : p ∈ squares) (hq : q ∈ squares) : parseTarget p.2 q.1 = .ok (q.2, q.2, 2) := by
  obtain ⟨q1, q2, -⟩ := squares_facts q hq
  obtain ⟨-, -, p3, -⟩ := squares_facts p hp
  simp only [parseTarget, q1, p3, not_false_eq_true, and_self, if_true, q2, pyFloat_two]

theorem convert_square_self {p : Sym × Sym} (hp : p ∈ squares) (v : ℝ) :
    convertUnit stdTables ⟨.area, v, p.2, 2⟩ p.1 = .ok ⟨.area, v, p.2, 2⟩ := by
  simp only [convertUnit, parse_square hp hp, convertParsed, if_true]

theorem convert_acre_acre (v : ℝ) (e : ℚ) : convertUnit stdTables ⟨.area, v, c!"acre", e⟩ c!"acre" = .error .valueError := by
  rw [convertUnit, parseTarget, if_neg (show ¬ ('^' ∈ c!"acre" ∧ c!"acre" ∉ unitComposites) by decide),
    if_pos (show c!"acre" ∈ unitComposites by decide)]
  rfl

/-- What acres turn into: the unit is the root of the target. -/
theorem convert_acre_units {q : Sym × Sym} (hq : q ∈ squares) {v : ℝ} {u : UnitV ℝ}
    (h : convertUnit stdTables ⟨.area, v, c!"acre", 1⟩ q.1 = .ok u) : u.cls = .area ∧ u.unit = q.2 ∧ u.exp = 2 := by
  obtain ⟨q1, q2, -, q4, q5, -, q7, -⟩ := squares_facts q hq
  simp only [convertUnit, parseTarget, show c!"acre" ∈ unitComposites by decide, not_true_eq_false, and_false, if_false, if_true,
    q2, pyFloat_two, convertParsed, q7.symm, standardOf, show ¬ c!"acre" = c!"m^2" by decide, mkArea_plain q4] at h
  repeat' split at h
  all_goals first | (cases h; done) | (cases h; exact ⟨rfl, rfl, rfl⟩)

/-- Areas: the only round trips are those from a square to itself; an acre cannot even be converted to acres. -/
theorem C20_area_exact (s t : Sym) (hs : UnitOf .area s) (ht : UnitOf .area t) (v : ℝ) :
    (∃ m u : UnitV ℝ, mkUnit .area v s 1 = .ok m ∧ convertUnit stdTables m t = .ok u ∧ convertUnit stdTables u s = .ok m) ↔
      s = t ∧ s ≠ c!"acre" := by
  rcases area_names s hs with rfl | ⟨p2, hp⟩
  · simp only [ne_eq, not_true_eq_false, and_false, iff_false]
    rintro ⟨m, u, h1, h2, h3⟩
    rw [mkArea_plain (by decide)] at h1
    cases h1
    rcases area_names t ht with rfl | ⟨q2, hq⟩
    · rw [convert_acre_acre] at h2; cases h2
    · obtain ⟨k1, k2, k3⟩ := convert_acre_units hq h2
      obtain ⟨uc, uv, us, ue⟩ := u
      simp only at k1 k2 k3
      subst k1 k2 k3
      have f := squares_facts _ hq
      rw [convert_square hq (parseTarget_plain f.2.2.1 (by decide)) f.2.2.2.2.2.1 (by decide)] at h3
      cases h3
  · have f := squares_facts _ hp
    have e1 := mkArea_square hp v 1
    simp only at e1 f
    simp only [ne_eq, f.2.2.2.2.2.2.1, not_false_eq_true, and_true]
    constructor
    · rintro ⟨m, u, h1, h2, h3⟩
      rw [e1] at h1; cases h1
      rcases area_names t ht with rfl | ⟨q2, hq⟩
      · rw [convert_square hp (parseTarget_plain f.2.2.1 (by decide)) f.2.2.2.2.2.1 (by decide)] at h2; cases h2
      · by_cases hne : p2 = q2
        · subst hne
          have : ∀ p ∈ squares, ∀ q ∈ squares, p.2 = q.2 → p.1 = q.1 := by decide +kernel
          exact this _ hp _ hq rfl
        · rw [convert_square hp (parse_square hp hq) hne (squares_facts _ hq).2.2.2.2.1] at h2; cases h2
    · rintro rfl
      exact ⟨_, _, e1, convert_square_self hp v, convert_square_self hp v⟩

theorem acreRoot_real : (acreRoot : PyM ℝ) = .ok (Real.sqrt (4046873 / 1000)) := by
  have := pow_real_half (x := (4046873 / 1000 : ℝ)) (by norm_num)
  simpa [acreRoot] using this

theorem acre_lookup (v : ℝ) : applyConv (lookupTo stdTables .area c!"acre") v 2 = .ok (v ^ 2 * (4046873 / 1000)) := by
  simp only [lookupTo, stdTables, areaTable, lookupSym, if_true, applyConv, acreRoot_real, pow_real_two]
  rw [mul_pow, Real.sq_sqrt (by norm_num)]

/-- Acres to square metres: the value is squared. -/
theorem C21_acre_metres (v : ℝ) : convertUnit stdTables ⟨.area, v, c!"acre", 1⟩ c!"m^2" =
    .ok ⟨.area, v ^ 2 * (4046873 / 1000), c!"m", 2⟩ := by
  have hp : parseTarget c!"acre" c!"m^2" = .ok (c!"m^2", c!"m", 2) := by decide +kernel
  simp only [convertUnit, hp, convertParsed, show ¬ c!"acre" = c!"m^2" by decide, if_false, standardOf, if_true, acre_lookup,
    mkArea_plain (show '^' ∉ c!"m" by decide)]

/-- Acres to the other squares: squared again after division by the root of the size. -/
theorem C21_acre_others (v : ℝ) : ∀ q ∈ [(c!"in^2", c!"in", (254 / 10000 : ℚ)), (c!"ft^2", c!"ft", 3048 / 10000),
    (c!"mile^2", c!"mile", 1609344 / 1000)], convertUnit stdTables ⟨.area, v, c!"acre", 1⟩ q.1 =
      .ok ⟨.area, (v ^ 2 * (4046873 / 1000) / q.2.2) ^ 2, q.2.1, 2⟩ := by
  have h1 : parseTarget c!"acre" c!"in^2" = .ok (c!"in^2", c!"in", 2) := by decide +kernel
  have h2 : parseTarget c!"acre" c!"ft^2" = .ok (c!"ft^2", c!"ft", 2) := by decide +kernel
  have h3 : parseTarget c!"acre" c!"mile^2" = .ok (c!"mile^2", c!"mile", 2) := by decide +kernel
  have g1 : lookupFrom (stdTables (K := ℝ)) .area c!"in^2" = .ok (divBy (254 / 10000)) := rfl
  have g2 : lookupFrom (stdTables (K := ℝ)) .area c!"ft^2" = .ok (divBy (3048 / 10000)) := rfl
  have g3 : lookupFrom (stdTables (K := ℝ)) .area c!"mile^2" = .ok (divBy (1609344 / 1000)) := rfl
  simp only [List.forall_mem_cons, List.not_mem_nil, false_imp_iff, implies_true, and_true]
  refine ⟨?_, ?_, ?_⟩
  · simp only [convertUnit, h1, convertParsed, show ¬ c!"acre" = c!"in^2" by decide, show ¬ c!"in^2" = c!"m^2" by decide,
      show ¬ c!"acre" = c!"m^2" by decide, if_false, standardOf, acre_lookup, g1]
    simp only [applyConv, divBy, pow_real_two, mkArea_plain (show '^' ∉ c!"in" by decide)]
  · simp only [convertUnit, h2, convertParsed, show ¬ c!"acre" = c!"ft^2" by decide, show ¬ c!"ft^2" = c!"m^2" by decide,
      show ¬ c!"acre" = c!"m^2" by decide, if_false, standardOf, acre_lookup, g2]
    simp only [applyConv, divBy, pow_real_two, mkArea_plain (show '^' ∉ c!"ft" by decide)]
  · simp only [convertUnit, h3, convertParsed, show ¬ c!"acre" = c!"mile^2" by decide, show ¬ c!"mile^2" = c!"m^2" by decide,
      show ¬ c!"acre" = c!"m^2" by decide, if_false, standardOf, acre_lookup, g3]
    simp only [applyConv, divBy, pow_real_two, mkArea_plain (show '^' ∉ c!"mile" by decide)]

example : UnitOf .area c!"acre" ∧ UnitOf .area c!"m^2" := by
  refine ⟨.inr ?_, .inl rfl⟩
  simp only [tableKeys, stdTables, areaTable, List.map_cons, List.map_nil]; decide

/-- Which conversions of areas are right: only those from a square to itself. -/
theorem C21_area_exact (s t : Sym) (hs : UnitOf .area s) (ht : UnitOf .area t) :
    (∀ v : ℝ, 0 < v → ∃ m u : UnitV ℝ, mkUnit .area v s 1 = .ok m ∧ convertUnit stdTables m t = .ok u ∧
      mkUnit .area u.value t 1 = .ok u ∧
      |u.value * (areaSize t : ℝ) - v * (areaSize s : ℝ)| ≤ v * (areaSize s : ℝ) / 10000) ↔ s = t ∧ s ≠ c!"acre" := by
  rcases area_names s hs with rfl | ⟨p2, hp⟩
  · simp only [ne_eq, not_true_eq_false, and_false, iff_false]
    intro h
    obtain ⟨m, u, h1, h2, -, h4⟩ := h 2 (by norm_num)
    rw [mkArea_plain (by decide)] at h1
    cases h1
    rcases area_names t ht with rfl | ⟨q2, hq⟩
    · rw [convert_acre_acre] at h2; cases h2
    · have e1 := C21_acre_metres 2
      have e2 := C21_acre_others 2
      have a0 : areaSize c!"acre" = 4046873 / 1000 := by decide +kernel
      have a1 : areaSize c!"m^2" = 1 := by decide +kernel
      have a2 : areaSize c!"in^2" = (254 / 10000) ^ 2 := by decide +kernel
      have a3 : areaSize c!"ft^2" = (3048 / 10000) ^ 2 := by decide +kernel
      have a4 : areaSize c!"mile^2" = (1609344 / 1000) ^ 2 := by decide +kernel
      simp only [List.forall_mem_cons, List.not_mem_nil, false_imp_iff, implies_true, and_true] at e2
      have ht : t = c!"m^2" ∨ t = c!"in^2" ∨ t = c!"ft^2" ∨ t = c!"mile^2" := by
        simp only [squares, List.mem_cons, Prod.mk.injEq, List.not_mem_nil, or_false] at hq
        tauto
      rcases ht with rfl | rfl | rfl | rfl
      · rw [e1] at h2; cases h2
        rw [a0, a1, abs_le] at h4
        norm_num at h4
      · rw [e2.1] at h2; cases h2
        rw [a0, a2, abs_le] at h4
        norm_num at h4
      · rw [e2.2.1] at h2; cases h2
        rw [a0, a3, abs_le] at h4
        norm_num at h4
      · rw [e2.2.2] at h2; cases h2
        rw [a0, a4, abs_le] at h4
        norm_num at h4
  · have f := squares_facts _ hp
    have e1 : ∀ v : ℝ, mkUnit .area v s 1 = .ok ⟨.area, v, p2, 2⟩ := fun v => mkArea_square hp v 1
    simp only at f
    simp only [ne_eq, f.2.2.2.2.2.2.1, not_false_eq_true, and_true]
    constructor
    · intro h
      obtain ⟨m, u, h1, h2, -, -⟩ := h 1 (by norm_num)
      rw [e1] at h1; cases h1
      rcases area_names t ht with rfl | ⟨q2, hq⟩
      · rw [convert_square hp (parseTarget_plain f.2.2.1 (by decide)) f.2.2.2.2.2.1 (by decide)] at h2; cases h2
      · by_cases hne : p2 = q2
        · subst hne
          have : ∀ p ∈ squares, ∀ q ∈ squares, p.2 = q.2 → p.1 = q.1 := by decide +kernel
          exact this _ hp _ hq rfl
        · rw [convert_square hp (parse_square hp hq) hne (squares_facts _ hq).2.2.2.2.1] at h2; cases h2
    · rintro rfl v hv
      refine ⟨_, _, e1 v, convert_square_self hp v, e1 v, ?_⟩
      have : (0 : ℝ) < areaSize s := by exact_mod_cast f.2.2.2.2.2.2.2
      rw [sub_self, abs_zero]; positivity

end Verif
