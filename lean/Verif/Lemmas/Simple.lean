import Verif.Spec.Sizes
import Verif.Units.Real
import Verif.Lemmas.Parse

/-! # Simple conversion through the tables -/

namespace Verif

/-- Entries of the shipped tables: multiply by `a` to reach the standard, by `b` to come back. -/
def entries : List (UCls × Sym × ℚ × ℚ) :=
  [(.pressure, c!"uPa", 1 / 1000000, 1000000), (.pressure, c!"mPa", 1 / 1000, 1000), (.pressure, c!"dPa", 1 / 10, 10),
   (.pressure, c!"kPa", 1000, 1 / 1000), (.pressure, c!"MPa", 10000000, 1 / 10000000),
   (.pressure, c!"bar", 100000, 1 / 100000), (.pressure, c!"atm", 101325, 1 / 101325),
   (.pressure, c!"mmHg", 133322 / 1000, 1000 / 133322), (.pressure, c!"psi", 689476 / 100, 100 / 689476),
   (.length, c!"in", 3048 / 120000, 12 * 328084 / 100000), (.length, c!"ft", 3048 / 10000, 328084 / 100000),
   (.length, c!"yd", 9144 / 10000, 10000 / 9144), (.length, c!"mile", 160934 / 100, 160934 / 100),
   (.length, c!"um", 1 / 1000000, 1000000), (.length, c!"mm", 1 / 1000, 1000), (.length, c!"cm", 1 / 100, 100),
   (.length, c!"dm", 1 / 10, 10), (.length, c!"km", 1000, 1 / 1000),
   (.time, c!"min", 60, 1 / 60), (.time, c!"hr", 3600, 1 / 3600), (.time, c!"day", 3600 * 24, 1 / (3600 * 24)),
   (.energy, c!"uJ", 1 / 1000000, 1000000), (.energy, c!"mJ", 1 / 1000, 1000), (.energy, c!"cJ", 1 / 100, 100),
   (.energy, c!"dJ", 1 / 10, 10), (.energy, c!"kJ", 1000, 1 / 1000), (.energy, c!"MJ", 1000000, 1 / 1000000),
   (.energy, c!"BTU", 1055056 / 1000, 1000 / 1055056),
   (.mass, c!"ug", 1 / 1000000000, 1000000000), (.mass, c!"mg", 1 / 1000000, 1000000),
   (.mass, c!"dg", 1 / 10000, 10000), (.mass, c!"g", 1 / 1000, 1000), (.mass, c!"Mg", 1000, 1 / 1000),
   (.mass, c!"lb", 453592 / 1000000, 220462 / 100000),
   (.force, c!"uN", 1 / 1000000, 1000000), (.force, c!"mN", 1 / 1000, 1000), (.force, c!"dN", 1 / 10, 10),
   (.force, c!"kN", 1000, 1 / 1000), (.force, c!"MN", 1000000, 1 / 1000000),
   (.force, c!"lbf", 444822 / 100000, 100000 / 444822)]

theorem entries_spec : ∀ e ∈ entries, ∃ f g : Conv ℝ,
    lookupTo (stdTables (K := ℝ)) e.1 e.2.1 = .ok f ∧ lookupFrom (stdTables (K := ℝ)) e.1 e.2.1 = .ok g ∧
    (∀ x, f x = .ok (x * (e.2.2.1 : ℝ))) ∧ (∀ x, g x = .ok (x * (e.2.2.2 : ℝ))) := by
  simp only [entries, List.mem_cons, List.not_mem_nil, or_false, forall_eq_or_imp, forall_eq]
  refine ⟨?_, ?_, ?_, ?_, ?_, ?_, ?_, ?_, ?_, ?_, ?_, ?_, ?_, ?_, ?_, ?_, ?_, ?_, ?_, ?_, ?_, ?_, ?_, ?_, ?_, ?_, ?_,
    ?_, ?_, ?_, ?_, ?_, ?_, ?_, ?_, ?_, ?_, ?_, ?_, ?_⟩ <;>
  exact ⟨_, _, rfl, rfl, fun x => by first | rfl | (refine congrArg Except.ok ?_; push_cast; ring),
    fun x => by first | rfl | (refine congrArg Except.ok ?_; push_cast; ring)⟩

/-- Every table entry is in the list. -/
theorem entries_complete : ∀ c ∈ linearClasses, ∀ s ∈ tableKeys stdTables c,
    ∃ e ∈ entries, e.1 = c ∧ e.2.1 = s := by
  intro c hc
  simp only [linearClasses, List.mem_cons, List.not_mem_nil, or_false] at hc
  rcases hc with rfl | rfl | rfl | rfl | rfl | rfl <;>
  · simp only [tableKeys, stdTables, pressureTable, lengthTable, timeTable, energyTable, massTable, forceTable,
      List.map_cons, List.map_nil]
    decide +kernel

theorem entries_facts : ∀ e ∈ entries, '^' ∉ e.2.1 ∧ e.2.1 ∉ unitComposites ∧ e.1 ∈ linearClasses ∧
    some e.2.1 ≠ standardOf e.1 ∧ (e.1 = .pressure → e.2.1 ∈ pressureUnits) ∧
    (e.1 = .force → e.2.1 ∈ forceUnits) ∧ 0 < e.2.2.1 ∧ 0 < e.2.2.2 := by decide +kernel

theorem standard_facts : ∀ c ∈ linearClasses, ∃ std, standardOf c = some std ∧ '^' ∉ std ∧ std ∉ unitComposites ∧
    (c = .pressure → std ∈ pressureUnits) ∧ (c = .force → std ∈ forceUnits) := by
  intro c hc
  simp only [linearClasses, List.mem_cons, List.not_mem_nil, or_false] at hc
  rcases hc with rfl | rfl | rfl | rfl | rfl | rfl <;>
  exact ⟨_, rfl, by decide +kernel, by decide +kernel, by decide +kernel, by decide +kernel⟩

theorem mkUnit_linear {c : UCls} (hc : c ∈ linearClasses) {s : Sym} (hp : c = .pressure → s ∈ pressureUnits)
    (hf : c = .force → s ∈ forceUnits) (v : ℝ) (e : ℚ) : mkUnit c v s e = .ok ⟨c, v, s, e⟩ := by
  simp only [linearClasses, List.mem_cons, List.not_mem_nil, or_false] at hc
  rcases hc with rfl | rfl | rfl | rfl | rfl | rfl <;> simp_all [mkUnit]

theorem parseTarget_plain {s t : Sym} (hs : s ∉ unitComposites) (ht : '^' ∉ t) :
    parseTarget s t = .ok (t, t, 1) := by
  simp [parseTarget, hs, ht]

theorem parseTarget_exp {s t : Sym} (hs : s ∉ unitComposites) (ht : '^' ∉ t) (d : DecLit) (hd : d.int ≠ []) :
    parseTarget s (t ++ '^' :: d.text) = .ok (t, t, d.value) := by
  have h2 : '^' ∉ d.text := fun hm => (text_chars d _ hm).2.2.1 rfl
  unfold parseTarget
  rw [if_pos ⟨by simp, hs⟩, splitOn_append, splitOn_none ht, splitOn_none h2]
  simp [pyFloat_text d hd]

/-- To the standard, for a parsed target. -/
theorem convertParsed_to {e : UCls × Sym × ℚ × ℚ} (he : e ∈ entries) {std : Sym}
    (hs : standardOf e.1 = some std) (v : ℝ) (x n : ℚ) {y : ℝ}
    (hy : (PyPow.pow (v * (e.2.2.1 : ℝ)) n : PyM ℝ) = .ok y) :
    convertParsed stdTables ⟨e.1, v, e.2.1, x⟩ std std n = .ok ⟨e.1, y, std, n⟩ := by
  obtain ⟨f, g, h1, h2, h3, h4⟩ := entries_spec e he
  obtain ⟨-, -, hc, hne, -⟩ := entries_facts e he
  obtain ⟨std', hs', -, -, hp, hf⟩ := standard_facts e.1 hc
  rw [hs] at hs'; cases hs'
  have hne' : e.2.1 ≠ std := by rintro h; exact hne (by rw [hs, h])
  unfold convertParsed
  simp only [hne', if_false, hs, if_true, h1, applyConv, h3, hy, mkUnit_linear hc hp hf]

/-- From the standard. -/
theorem convertParsed_from {e : UCls × Sym × ℚ × ℚ} (he : e ∈ entries) {std : Sym}
    (hs : standardOf e.1 = some std) (v : ℝ) (x n : ℚ) {y : ℝ}
    (hy : (PyPow.pow (v * (e.2.2.2 : ℝ)) n : PyM ℝ) = .ok y) :
    convertParsed stdTables ⟨e.1, v, std, x⟩ e.2.1 e.2.1 n = .ok ⟨e.1, y, e.2.1, n⟩ := by
  obtain ⟨f, g, h1, h2, h3, h4⟩ := entries_spec e he
  obtain ⟨-, -, hc, hne, hp, hf, -⟩ := entries_facts e he
  have hne' : e.2.1 ≠ std := by rintro h; exact hne (by rw [hs, h])
  unfold convertParsed
  simp only [hne', hne'.symm, if_false, hs, if_true, h2, applyConv, h4, hy, mkUnit_linear hc hp hf]

/-- Between two table entries. -/
theorem convertParsed_both {e e' : UCls × Sym × ℚ × ℚ} (he : e ∈ entries) (he' : e' ∈ entries)
    (hc' : e'.1 = e.1) (hne : e.2.1 ≠ e'.2.1) (v : ℝ) (x n : ℚ) {z y : ℝ}
    (hz : (PyPow.pow (v * (e.2.2.1 : ℝ)) n : PyM ℝ) = .ok z)
    (hy : (PyPow.pow (z * (e'.2.2.2 : ℝ)) n : PyM ℝ) = .ok y) :
    convertParsed stdTables ⟨e.1, v, e.2.1, x⟩ e'.2.1 e'.2.1 n = .ok ⟨e.1, y, e'.2.1, n⟩ := by
  obtain ⟨f, g, h1, h2, h3, h4⟩ := entries_spec e he
  obtain ⟨f', g', h1', h2', h3', h4'⟩ := entries_spec e' he'
  obtain ⟨-, -, hc, hne1, -⟩ := entries_facts e he
  obtain ⟨-, -, -, hne2, hp, hf, -⟩ := entries_facts e' he'
  obtain ⟨std, hs, -⟩ := standard_facts e.1 hc
  have hn1 : e.2.1 ≠ std := by rintro h; exact hne1 (by rw [hs, h])
  have hn2 : e'.2.1 ≠ std := by rintro h; exact hne2 (by rw [hc', hs, h])
  rw [hc'] at h2' hp hf
  unfold convertParsed
  simp only [hne, hn1, hn2, if_false, hs, h1, h2', applyConv, h3, h4', hz, hy, mkUnit_linear hc hp hf]

/-- Size factors of a unit of a linear class: the standard or an entry. -/
def HasFactors (c : UCls) (s : Sym) (a b : ℚ) : Prop :=
  (standardOf c = some s ∧ a = 1 ∧ b = 1) ∨ (c, s, a, b) ∈ entries

/-- Conversion with exponent 1. -/
theorem convertUnit_one {c : UCls} (hc : c ∈ linearClasses) {s t : Sym} {a b a' b' : ℚ} (hs : HasFactors c s a b)
    (ht : HasFactors c t a' b') (hne : s ≠ t) (v : ℝ) :
    convertUnit stdTables ⟨c, v, s, 1⟩ t = .ok ⟨c, v * a * b', t, 1⟩ := by
  obtain ⟨std, hstd, n1, n2, -⟩ := standard_facts c hc
  have ok : ∀ {s a b}, HasFactors c s a b → '^' ∉ s ∧ s ∉ unitComposites := by
    rintro s a b (⟨h, -⟩ | h)
    · rw [hstd] at h; cases h; exact ⟨n1, n2⟩
    · have := entries_facts _ h; exact ⟨this.1, this.2.1⟩
  unfold convertUnit
  rw [parseTarget_plain (ok hs).2 (ok ht).1]
  simp only
  rcases hs with ⟨h1, rfl, rfl⟩ | h1 <;> rcases ht with ⟨h2, rfl, rfl⟩ | h2
  · rw [h1] at h2; cases h2; exact absurd rfl hne
  · rw [convertParsed_from h2 h1 v 1 1 (pow_real_one _)]; simp
  · rw [convertParsed_to h1 h2 v 1 1 (pow_real_one _)]; simp
  · exact convertParsed_both h1 h2 rfl hne v 1 1 (pow_real_one _) (pow_real_one _)

theorem convertUnit_same (u : UnitV ℝ) (hs : u.unit ∉ unitComposites) (ht : '^' ∉ u.unit) :
    convertUnit stdTables u u.unit = .ok u := by
  unfold convertUnit
  rw [parseTarget_plain hs ht]
  simp [convertParsed]

end Verif
