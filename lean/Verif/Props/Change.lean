import Verif.Lemmas.Change
import Verif.Props.Foreign

/-!
# C120: a calculation means the same in all units
-/

namespace Verif
open Code

theorem foreignTable_homogeneous : ∀ t ∈ foreignTable, (codedFormulas.any fun f => decide (f.name = t.name) &&
    t.homogeneous (decide (t.result = FArg.temperatureDim)) t.result f.code) = true := by
  decide +kernel

theorem coded_unique {f g : CodedFormula} (hf : f ∈ codedFormulas) (hg : g ∈ codedFormulas) (h : f.name = g.name) : f = g :=
  List.inj_on_of_nodup_map codedFormulas_names hf hg h

theorem FCall.homogeneous_of {t : FCall} (ht : t ∈ foreignTable) {f : CodedFormula} (hf : f ∈ codedFormulas)
    (h : f.name = t.name) : t.homogeneous (decide (t.result = FArg.temperatureDim)) t.result f.code = true := by
  obtain ⟨g, hg, h'⟩ := List.any_eq_true.1 (foreignTable_homogeneous t ht)
  simp only [Bool.and_eq_true, decide_eq_true_eq] at h'
  obtain rfl := coded_unique hf hg (h.trans h'.1.symm)
  exact h'.2

/-- A number of the result of the row in the new units. -/
noncomputable def FCall.inNew (t : FCall) (χ : Change) (x : ℝ) : ℝ :=
  χ.factor t.result * x + if t.result = FArg.temperatureDim then χ.shift else 0

/-- Two sets of units of any sizes, with temperatures from any zero, and arguments of the same meaning: the same exception, or
results of the same meaning. -/
theorem C120_change_units : ∀ t ∈ foreignTable, ∃ f ∈ codedFormulas, f.name = t.name ∧
    ∀ (S S' : UnitSet) (χ : Change) (a b : ℕ → Val ℝ), t.Fits S a → t.Fits S' b → t.Corresponds χ a b →
      (∀ e, f.model a = .error e ↔ f.model b = .error e) ∧
      ∀ r, f.model a = .ok r → ∃ r', f.model b = .ok r' ∧ S.Gives t.result r ∧ S'.Gives t.result r' ∧
        r'.amount = t.inNew χ r.amount := by
  intro t ht
  obtain ⟨f, hf, h1, h2⟩ := C118_faults t (List.mem_append_left _ ht)
  refine ⟨f, hf, h1, fun S S' χ a b ha hb hab => ?_⟩
  obtain ⟨e1, e2⟩ := FCall.homogeneous_spec (FCall.homogeneous_of ht hf h1) hab
  obtain ⟨ae, ao⟩ := h2 S a ha
  obtain ⟨be, bo⟩ := h2 S' b hb
  rw [e2] at be bo
  cases hk : f.code.fault fun i => (a i).amount with
  | some e' => simp [ae e' hk, be e' hk]
  | none =>
    obtain ⟨r, r1, r2, r3⟩ := ao hk
    obtain ⟨r', r1', r2', r3'⟩ := bo hk
    refine ⟨by simp [r1, r1'], fun x hx => ⟨r', r1', ?_⟩⟩
    rw [r1] at hx
    cases hx
    refine ⟨r2, r2', ?_⟩
    rw [r3, r3', e1, FCall.inNew]
    simp only [decide_eq_true_eq]

/-- The same with SI units on one side: converting the arguments by hand and calling the formula in SI units gives the result
in SI units. -/
theorem C120_as_si : ∀ t ∈ foreignTable, ∀ s ∈ callTable ++ oddCallTable, s.name = t.name → ∃ f ∈ codedFormulas, f.name = t.name ∧
    ∀ (S : UnitSet) (χ : Change) (a b : ℕ → Val ℝ), t.Fits S a → s.Fits b → t.Corresponds χ a b →
      (∀ e, f.model a = .error e ↔ f.model b = .error e) ∧
      ∀ r, f.model a = .ok r → ∃ r', f.model b = .ok r' ∧ r'.amount = t.inNew χ r.amount := by
  intro t ht s hs hn
  obtain ⟨f, hf, h1, h2⟩ := C118_faults t (List.mem_append_left _ ht)
  obtain ⟨g, hg, g1, g2⟩ := C117_faults s hs
  obtain rfl : f = g := coded_unique hf hg (h1.trans (hn.symm.trans g1.symm))
  refine ⟨f, hf, h1, fun S χ a b ha hb hab => ?_⟩
  obtain ⟨e1, e2⟩ := FCall.homogeneous_spec (FCall.homogeneous_of ht hf h1) hab
  obtain ⟨ae, ao⟩ := h2 S a ha
  obtain ⟨be, bo⟩ := g2 b hb
  rw [e2] at be bo
  cases hk : f.code.fault fun i => (a i).amount with
  | some e' => simp [ae e' hk, be e' hk]
  | none =>
    obtain ⟨r, r1, r2, r3⟩ := ao hk
    obtain ⟨r', r1', -, -, -, r3'⟩ := bo hk
    refine ⟨by simp [r1, r1'], fun x hx => ⟨r', r1', ?_⟩⟩
    rw [r1] at hx
    cases hx
    rw [r3, r3', e1, FCall.inNew]
    simp only [decide_eq_true_eq]

/-- Formulas with temperatures from absolute zero: the same without a shift of the zero. -/
theorem C120_absolute : ∀ t ∈ absoluteForeignTable, ∃ f ∈ codedFormulas, f.name = t.name ∧
    ∀ (S S' : UnitSet) (χ : Change) (a b : ℕ → Val ℝ), χ.shift = 0 → t.Fits S a → t.Fits S' b → t.Corresponds χ a b →
      (∀ e, f.model a = .error e ↔ f.model b = .error e) ∧
      ∀ r, f.model a = .ok r → ∃ r', f.model b = .ok r' ∧ S.Gives t.result r ∧ S'.Gives t.result r' ∧
        r'.amount = χ.factor t.result * r.amount := by
  have key : ∀ t ∈ absoluteForeignTable, (codedFormulas.any fun f => decide (f.name = t.name) &&
      decide (f.code.dims (fun i => (t.arg i).map fun k => k.1.dim) = some t.result)) = true := by decide +kernel
  intro t ht
  obtain ⟨f, hf, h1, h2⟩ := C118_faults t (List.mem_append_right _ (List.mem_append_left _ ht))
  obtain ⟨g, hg, h'⟩ := List.any_eq_true.1 (key t ht)
  simp only [Bool.and_eq_true, decide_eq_true_eq] at h'
  obtain rfl := coded_unique hf hg (h1.trans h'.1.symm)
  refine ⟨f, hf, h1, fun S S' χ a b h0 ha hb hab => ?_⟩
  obtain ⟨e1, e2⟩ := Code.dims_scale χ (x := fun i => (a i).amount) (y := fun i => (b i).amount) (fun i d hd => by
    cases hk : t.arg i with
    | none => rw [hk] at hd; cases hd
    | some k => rw [hk] at hd; cases hd; simpa [h0] using hab i k hk) f.code t.result h'.2
  obtain ⟨ae, ao⟩ := h2 S a ha
  obtain ⟨be, bo⟩ := h2 S' b hb
  rw [e2] at be bo
  cases hk : f.code.fault fun i => (a i).amount with
  | some e' => simp [ae e' hk, be e' hk]
  | none =>
    obtain ⟨r, r1, r2, r3⟩ := ao hk
    obtain ⟨r', r1', r2', r3'⟩ := bo hk
    refine ⟨by simp [r1, r1'], fun x hx => ⟨r', r1', ?_⟩⟩
    rw [r1] at hx
    cases hx
    exact ⟨r2, r2', by rw [r3, r3', e1]⟩

/-- The logarithmic mean does not depend on the zero of the temperatures. -/
theorem C120_logmean (S S' : UnitSet) (χ : Change) (a b : ℕ → Val ℝ) (ha : logmeanCall.Fits S a) (hb : logmeanCall.Fits S' b)
    (hab : logmeanCall.Corresponds χ a b) :
    (∀ e, deltatLogmean (.ok (a 0)) (.ok (a 1)) (.ok (a 2)) (.ok (a 3)) = .error e ↔
      deltatLogmean (.ok (b 0)) (.ok (b 1)) (.ok (b 2)) (.ok (b 3)) = .error e) ∧
    ∀ r, deltatLogmean (.ok (a 0)) (.ok (a 1)) (.ok (a 2)) (.ok (a 3)) = .ok r →
      ∃ r', deltatLogmean (.ok (b 0)) (.ok (b 1)) (.ok (b 2)) (.ok (b 3)) = .ok r' ∧ r'.amount = χ.size .temperature * r.amount := by
  obtain ⟨e1, e2⟩ := FCall.homogeneous_spec (t := logmeanCall) (p := false) (d := FArg.temperatureDim)
    (c := ((var 0 - var 3) - (var 1 - var 2)) / fn .log ((var 0 - var 3) / (var 1 - var 2))) (by decide +kernel) hab
  have hT : χ.factor FArg.temperatureDim = χ.size .temperature := by simp [Change.factor, FArg.temperatureDim]
  obtain ⟨ae, ao⟩ := C118_logmean S a ha
  obtain ⟨be, bo⟩ := C118_logmean S' b hb
  rw [e2] at be bo
  cases hk : (((var 0 - var 3) - (var 1 - var 2)) / fn .log ((var 0 - var 3) / (var 1 - var 2)) : Code).fault
      fun i => (a i).amount with
  | some e' => simp [ae e' hk, be e' hk]
  | none =>
    obtain ⟨r, r1, r2, r3⟩ := ao hk
    obtain ⟨r', r1', r2', r3'⟩ := bo hk
    refine ⟨by simp [r1, r1'], fun x hx => ⟨r', r1', ?_⟩⟩
    rw [r1] at hx
    cases hx
    rw [r3, r3', e1, hT]
    simp

/-- The dimension of the number that a row of `oddForeignTable` returns. -/
def FCall.trueDim (t : FCall) : Dim := if t.name = c!"sphere_heat" then t.result else FArg.areaDim

/-- The rows with a result other than documented.  `sphere_heat` leaves out the conductivity: its number is that of its units,
a length times a temperature.  The numbers of `Sb_calc` and `Sc_calc` are areas, but their units are lengths. -/
theorem C120_odd_numbers : ∀ t ∈ oddForeignTable, ∃ f ∈ codedFormulas, f.name = t.name ∧
    (t.name ≠ c!"sphere_heat" → t.result = FArg.lengthDim ∧ t.trueDim = FArg.areaDim) ∧
    ∀ (S S' : UnitSet) (χ : Change) (a b : ℕ → Val ℝ), t.Fits S a → t.Fits S' b → t.Corresponds χ a b →
      ∀ r, f.model a = .ok r → S.Gives t.result r ∧ ∃ r', f.model b = .ok r' ∧ r'.amount = χ.factor t.trueDim * r.amount := by
  have key : ∀ t ∈ oddForeignTable, (codedFormulas.any fun f => decide (f.name = t.name) &&
      (t.homogeneous false t.trueDim f.code && decide (t.name ≠ c!"sphere_heat" → t.result = FArg.lengthDim))) = true := by
    decide +kernel
  intro t ht
  obtain ⟨f, hf, h1, h2⟩ := C118_faults t (List.mem_append_right _ (List.mem_append_right _ ht))
  obtain ⟨g, hg, h'⟩ := List.any_eq_true.1 (key t ht)
  simp only [Bool.and_eq_true, decide_eq_true_eq] at h'
  obtain rfl := coded_unique hf hg (h1.trans h'.1.symm)
  refine ⟨f, hf, h1, fun h => ⟨h'.2.2 h, if_neg h⟩, ?_⟩
  intro S S' χ a b ha hb hab x hx
  obtain ⟨e1, e2⟩ := FCall.homogeneous_spec h'.2.1 hab
  obtain ⟨ae, ao⟩ := h2 S a ha
  obtain ⟨be, bo⟩ := h2 S' b hb
  rw [e2] at be bo
  cases hk : f.code.fault fun i => (a i).amount with
  | some e' => rw [ae e' hk] at hx; cases hx
  | none =>
    obtain ⟨r, r1, r2, r3⟩ := ao hk
    obtain ⟨r', r1', r2', r3'⟩ := bo hk
    rw [r1] at hx
    cases hx
    exact ⟨r2, r', r1', by rw [r3, r3', e1]; simp⟩

/-! ## Non-vacuity -/

/-- From English units to SI units, and from degrees Fahrenheit to degrees Celsius. -/
noncomputable def fromEnglish : Change where
  size := fun
    | .length => 0.3048
    | .mass => 0.45359237
    | .time => 3600
    | .temperature => 5 / 9
    | .energy => 1055.056
    | .amount => 453.59237
  pos := fun i => by cases i <;> norm_num
  shift := -160 / 9

/-- A surface temperature of a slab in degrees Fahrenheit from a conductivity in BTU/(hr*ft*F), and the corresponding call in
metres, watts and degrees Celsius. -/
example (k T1 x q : ℝ) : ∃ t ∈ foreignTable, t.name = c!"planar_flux (T2)" ∧
    t.Fits english (fun i => match i with
      | 0 => .multi ⟨.multi, k, [⟨c!"BTU", 1⟩], [⟨c!"hr", 1⟩, ⟨c!"ft", 1⟩, ⟨c!"F", 1⟩]⟩
      | 1 => .unit ⟨.temperature, T1, c!"F", 1⟩
      | 3 => .unit ⟨.length, x, c!"ft", 1⟩
      | 4 => .multi ⟨.multi, q, [⟨c!"BTU", 1⟩], [⟨c!"hr", 1⟩, ⟨c!"ft", 2⟩]⟩
      | _ => .none) ∧
    (∃ b, t.Corresponds fromEnglish (fun i => match i with
      | 0 => .multi ⟨.multi, k, [⟨c!"BTU", 1⟩], [⟨c!"hr", 1⟩, ⟨c!"ft", 1⟩, ⟨c!"F", 1⟩]⟩
      | 1 => .unit ⟨.temperature, T1, c!"F", 1⟩
      | 3 => .unit ⟨.length, x, c!"ft", 1⟩
      | 4 => .multi ⟨.multi, q, [⟨c!"BTU", 1⟩], [⟨c!"hr", 1⟩, ⟨c!"ft", 2⟩]⟩
      | _ => .none) b ∧ (b 1).amount = 5 / 9 * T1 - 160 / 9) := by
  have m1 : english.Mem c!"BTU" := ⟨.energy, rfl⟩
  have m2 : english.Mem c!"hr" := ⟨.time, rfl⟩
  have m3 : english.Mem c!"ft" := ⟨.length, rfl⟩
  have m4 : english.Mem c!"F" := ⟨.temperature, rfl⟩
  refine ⟨⟨c!"planar_flux (T2)", [FArg.pos FArg.conductivity, FArg.any FArg.temperature, none, FArg.any FArg.length,
    FArg.any FArg.heatFlux], [], [], FArg.temperatureDim⟩, by decide +kernel, rfl, ⟨?_, by simp⟩, ?_⟩
  · intro i κ hκ
    match i, hκ with
    | 0, hκ => cases hκ; exact english_is (by simp [m1, m2, m3, m4]) (by decide +kernel)
    | 1, hκ => cases hκ; exact ⟨T1, rfl, T1, c!"F", 1, rfl⟩
    | 2, hκ => cases hκ
    | 3, hκ => cases hκ; exact ⟨x, rfl, x, c!"ft", 1, rfl⟩
    | 4, hκ => cases hκ; exact english_is (by simp [m1, m2, m3]) (by decide +kernel)
    | n + 5, hκ => cases hκ
  · refine ⟨fun i => .num (match i with
      | 0 => fromEnglish.factor FArg.conductivityDim * k + 0
      | 1 => 5 / 9 * T1 - 160 / 9
      | 3 => fromEnglish.factor FArg.lengthDim * x + 0
      | 4 => fromEnglish.factor FArg.heatFluxDim * q + 0
      | _ => 0), ?_, rfl⟩
    have hT : fromEnglish.factor ((1 : ℚ) • Slot.temperature.dim) = 5 / 9 := by simp [Change.factor, Slot.dim, fromEnglish]
    have hL : (1 : ℚ) • Slot.length.dim = FArg.lengthDim := by decide +kernel
    intro i κ hκ
    match i, hκ with
    | 0, hκ => cases hκ; rfl
    | 1, hκ =>
      cases hκ
      change 5 / 9 * T1 - 160 / 9 = fromEnglish.factor ((1 : ℚ) • Slot.temperature.dim) * T1 + -160 / 9
      rw [hT]; ring
    | 2, hκ => cases hκ
    | 3, hκ =>
      cases hκ
      change fromEnglish.factor FArg.lengthDim * x + 0 = fromEnglish.factor ((1 : ℚ) • Slot.length.dim) * x + 0
      rw [hL]
    | 4, hκ => cases hκ; rfl
    | n + 5, hκ => cases hκ

end Verif
