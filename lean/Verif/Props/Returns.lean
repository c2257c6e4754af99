import Verif.Lemmas.Returns
import Verif.Spec.ReturnsTable
import Verif.Props.Trends

/-!
# C99: the formulas return when called with SI quantities
-/

namespace Verif
open Code

theorem callTable_passes : ∀ t ∈ callTable ++ oddCallTable,
    (codedFormulas.any fun f => decide (f.name = t.name) && t.passes f.code) = true := by
  decide +kernel

theorem SICall.found {t : SICall} (ht : t ∈ callTable ++ oddCallTable) : ∃ f ∈ codedFormulas, f.name = t.name ∧
    t.passes f.code = true := by
  obtain ⟨f, hf, h⟩ := List.any_eq_true.1 (callTable_passes t ht)
  simp only [Bool.and_eq_true, decide_eq_true_eq] at h
  exact ⟨f, hf, h.1, h.2⟩

/-- Every row of the table: called like that the formula returns a quantity of the documented dimension. -/
theorem C99_returns : ∀ t ∈ callTable, ∃ f ∈ codedFormulas, f.name = t.name ∧ t.Returns f.model := by
  intro t ht
  obtain ⟨f, hf, h1, h2⟩ := SICall.found (List.mem_append_left _ ht)
  refine ⟨f, hf, h1, fun a ha => ?_⟩
  obtain ⟨r, e1, e2, e3, e4, -⟩ := SICall.returns_of (C82_formulas f hf) h2 a ha
  exact ⟨r, e1, e2, e3, e4⟩

/-- The number of the result is the value of the formula read as an expression over the real numbers, however the units of
the arguments are written. -/
theorem C99_values : ∀ t ∈ callTable, ∃ f ∈ codedFormulas, f.name = t.name ∧
    ∀ a, t.Admits a → ∃ r, f.model a = .ok r ∧ r.amount = f.code.eval fun i => (a i).amount := by
  intro t ht
  obtain ⟨f, hf, h1, h2⟩ := SICall.found (List.mem_append_left _ ht)
  refine ⟨f, hf, h1, fun a ha => ?_⟩
  obtain ⟨r, e1, -, -, -, e5⟩ := SICall.returns_of (C82_formulas f hf) h2 a ha
  exact ⟨r, e1, e5⟩

/-- The tables leave out two formulas: `deltat_logmean` (C44) and `K_from_standard`. -/
theorem C99_covers : ∀ f ∈ codedFormulas, (∃ t ∈ callTable ++ oddCallTable, t.name = f.name) ∨
    f.name = c!"deltat_logmean" ∨ f.name = c!"K_from_standard" := by
  have : (codedFormulas.all fun f => (callTable ++ oddCallTable).any (fun t => decide (t.name = f.name)) ||
      (decide (f.name = c!"deltat_logmean") || decide (f.name = c!"K_from_standard"))) = true := by decide +kernel
  intro f hf
  have := List.all_eq_true.1 this f hf
  simpa only [Bool.or_eq_true, List.any_eq_true, decide_eq_true_eq] using this

theorem codedFormulas_names : (codedFormulas.map CodedFormula.name).Nodup := by decide +kernel

/-- With SI arguments the trends of C98 hold without the assumption that the calls return. -/
theorem C99_trends : ∀ t ∈ trendTable ++ trendTableMore, ∀ s ∈ callTable, s.name = t.name →
    ∃ f ∈ codedFormulas, f.name = t.name ∧ ∀ a b, s.Admits a → s.Admits b →
      t.Admits (fun s => (siSize s : ℝ)) a → t.Admits (fun s => (siSize s : ℝ)) b →
        ∀ i A e, t.arg i = some A → A.effect = some e →
          (∀ j, j ≠ i → (t.arg j).isSome → (a j).magn (fun s => (siSize s : ℝ)) = (b j).magn fun s => (siSize s : ℝ)) →
            (a i).magn (fun s => (siSize s : ℝ)) < (b i).magn (fun s => (siSize s : ℝ)) →
              ∃ r r', f.model a = .ok r ∧ f.model b = .ok r' ∧ e.Rel r.amount r'.amount := by
  intro t ht s hs hn
  obtain ⟨f, hf, h1, h2⟩ : ∃ f ∈ codedFormulas, f.name = t.name ∧ t.Hold f.model := by
    rcases List.mem_append.1 ht with h | h
    · exact C98_trends t h
    · exact C98_trends_more t h
  obtain ⟨g, hg, g1, g2⟩ := C99_returns s hs
  obtain rfl : f = g := List.inj_on_of_nodup_map codedFormulas_names hf hg (h1.trans (hn.symm.trans g1.symm))
  refine ⟨f, hf, h1, fun a b ha hb ta tb i A e hA he hj hi => ?_⟩
  obtain ⟨r, r1, -, r2, -⟩ := g2 a ha
  obtain ⟨r', r1', -, r2', -⟩ := g2 b hb
  refine ⟨r, r', r1, r1', ?_⟩
  rw [← r2, ← r2']
  exact h2 _ siSize_coherent a b ta tb i A e hA he hj hi r r' r1 r1'

/-- Formulas whose result has another dimension than documented return one of the dimension in the table.  Missing: the
documented dimension (`C99_documented_false`). -/
theorem C99_odd_partial : ∀ t ∈ oddCallTable, ∃ f ∈ codedFormulas, f.name = t.name ∧ t.Returns f.model := by
  intro t ht
  obtain ⟨f, hf, h1, h2⟩ := SICall.found (List.mem_append_right _ ht)
  refine ⟨f, hf, h1, fun a ha => ?_⟩
  obtain ⟨r, e1, e2, e3, e4, -⟩ := SICall.returns_of (C82_formulas f hf) h2 a ha
  exact ⟨r, e1, e2, e3, e4⟩

/-- None of them ever returns a quantity of the documented dimension. -/
theorem C99_documented_false : ∀ t ∈ oddCallTable, ∃ f ∈ codedFormulas, f.name = t.name ∧
    ∀ a, t.Admits a → ¬ ∃ r, f.model a = .ok r ∧ r.dim = documentedDim t.name := by
  intro t ht
  obtain ⟨f, hf, h1, h2⟩ := C99_odd_partial t ht
  refine ⟨f, hf, h1, fun a ha ⟨r, e1, e2⟩ => ?_⟩
  obtain ⟨r', e1', e2', -⟩ := h2 a ha
  rw [e1] at e1'
  cases e1'
  have : ∀ t ∈ oddCallTable, t.result ≠ documentedDim t.name := by decide +kernel
  exact this t ht (e2'.symm.trans e2)

/-- Concentrations of one dimension in SI units that are not written alike: `kg/m^3` and `kg/(m*m^2)`.  The row of
`planar_mass_flux_steady_state` needs them alike. -/
theorem C99_written_differently_false : ¬ ∀ a : ℕ → Val ℝ, SICall.Admits
    ⟨c!"planar_mass_flux_steady_state", [SIArg.pos SIArg.diffusivity, SIArg.any SIArg.density, SIArg.any SIArg.density,
      SIArg.pos SIArg.length], [], [], Kind.massFlux.dim⟩ a →
    ∃ r, planarMassFlux (.ok (a 0)) (.ok (a 1)) (.ok (a 2)) (.ok (a 3)) = .ok r := by
  intro h
  obtain ⟨r, hr⟩ := h (fun i => match i with
    | 0 => .multi ⟨.multi, 1, [⟨c!"m", 2⟩], [⟨c!"s", 1⟩]⟩
    | 1 => .multi ⟨.multi, 1, [⟨c!"kg", 1⟩], [⟨c!"m", 3⟩]⟩
    | 2 => .multi ⟨.multi, 2, [⟨c!"kg", 1⟩], [⟨c!"m", 1⟩, ⟨c!"m", 2⟩]⟩
    | _ => .unit ⟨.length, 1, c!"m", 1⟩) (by
      have d0 : (Val.multi (K := ℝ) ⟨.multi, 1, [⟨c!"m", 2⟩], [⟨c!"s", 1⟩]⟩).dim = Kind.diffusivity.dim :=
        (show (Val.multi (K := ℝ) ⟨.multi, 0, [⟨c!"m", 2⟩], [⟨c!"s", 1⟩]⟩).dim = _ by decide +kernel)
      have d1 : (Val.multi (K := ℝ) ⟨.multi, 1, [⟨c!"kg", 1⟩], [⟨c!"m", 3⟩]⟩).dim = Kind.density.dim :=
        (show (Val.multi (K := ℝ) ⟨.multi, 0, [⟨c!"kg", 1⟩], [⟨c!"m", 3⟩]⟩).dim = _ by decide +kernel)
      have d2 : (Val.multi (K := ℝ) ⟨.multi, 2, [⟨c!"kg", 1⟩], [⟨c!"m", 1⟩, ⟨c!"m", 2⟩]⟩).dim = Kind.density.dim :=
        (show (Val.multi (K := ℝ) ⟨.multi, 0, [⟨c!"kg", 1⟩], [⟨c!"m", 1⟩, ⟨c!"m", 2⟩]⟩).dim = _ by decide +kernel)
      refine ⟨?_, ?_, by simp, by simp⟩
      · intro i k hk
        match i, hk with
        | 0, hk => cases hk; exact ⟨_, rfl, by simp [siSymbols], d0⟩
        | 1, hk => cases hk; exact ⟨_, rfl, by simp [siSymbols], d1⟩
        | 2, hk => cases hk; exact ⟨_, rfl, by simp [siSymbols], d2⟩
        | 3, hk => cases hk; exact ⟨_, rfl, 1, c!"m", 1, rfl⟩
        | n + 4, hk => cases hk
      · intro i k s hk hs
        match i, hk with
        | 0, hk => cases hk; cases hs; exact one_pos
        | 1, hk => cases hk; cases hs
        | 2, hk => cases hk; cases hs
        | 3, hk => cases hk; cases hs; exact one_pos
        | n + 4, hk => cases hk)
  have : planarMassFlux (K := ℝ) (.ok (.multi ⟨.multi, 1, [⟨c!"m", 2⟩], [⟨c!"s", 1⟩]⟩))
      (.ok (.multi ⟨.multi, 1, [⟨c!"kg", 1⟩], [⟨c!"m", 3⟩]⟩))
      (.ok (.multi ⟨.multi, 2, [⟨c!"kg", 1⟩], [⟨c!"m", 1⟩, ⟨c!"m", 2⟩]⟩)) (.ok (.unit ⟨.length, 1, c!"m", 1⟩)) =
      .error .typeError := rfl
  cases this.symm.trans hr

/-! ## Non-vacuity -/

/-- The row of `reynolds` admits a density in `kg/m^3`, a velocity in `m/s` and a viscosity in `Pa*s` or `kg/(m*s)`. -/
example (ρ v d μ : ℝ) (hμ : 0 < μ) (m : MultiV ℝ) (hm : m = ⟨.multi, μ, [⟨c!"Pa", 1⟩, ⟨c!"s", 1⟩], []⟩ ∨
    m = ⟨.multi, μ, [⟨c!"kg", 1⟩], [⟨c!"m", 1⟩, ⟨c!"s", 1⟩]⟩) :
    ∃ t ∈ callTable, t.name = c!"reynolds" ∧ t.result = 0 ∧ t.Admits fun i => match i with
      | 0 => .multi ⟨.multi, ρ, [⟨c!"kg", 1⟩], [⟨c!"m", 3⟩]⟩
      | 1 => .multi ⟨.multi, v, [⟨c!"m", 1⟩], [⟨c!"s", 1⟩]⟩
      | 2 => .unit ⟨.length, d, c!"m", 1⟩
      | _ => .multi m := by
  have d0 : (Val.multi (K := ℝ) ⟨.multi, ρ, [⟨c!"kg", 1⟩], [⟨c!"m", 3⟩]⟩).dim = Kind.density.dim :=
    (show (Val.multi (K := ℝ) ⟨.multi, 0, [⟨c!"kg", 1⟩], [⟨c!"m", 3⟩]⟩).dim = _ by decide +kernel)
  have d1 : (Val.multi (K := ℝ) ⟨.multi, v, [⟨c!"m", 1⟩], [⟨c!"s", 1⟩]⟩).dim = Kind.velocity.dim :=
    (show (Val.multi (K := ℝ) ⟨.multi, 0, [⟨c!"m", 1⟩], [⟨c!"s", 1⟩]⟩).dim = _ by decide +kernel)
  have d3 : (Val.multi (K := ℝ) ⟨.multi, μ, [⟨c!"Pa", 1⟩, ⟨c!"s", 1⟩], []⟩).dim = Kind.viscosity.dim :=
    (show (Val.multi (K := ℝ) ⟨.multi, 0, [⟨c!"Pa", 1⟩, ⟨c!"s", 1⟩], []⟩).dim = _ by decide +kernel)
  have d4 : (Val.multi (K := ℝ) ⟨.multi, μ, [⟨c!"kg", 1⟩], [⟨c!"m", 1⟩, ⟨c!"s", 1⟩]⟩).dim = Kind.viscosity.dim :=
    (show (Val.multi (K := ℝ) ⟨.multi, 0, [⟨c!"kg", 1⟩], [⟨c!"m", 1⟩, ⟨c!"s", 1⟩]⟩).dim = _ by decide +kernel)
  refine ⟨⟨c!"reynolds", [SIArg.any SIArg.density, SIArg.any SIArg.velocity, SIArg.any SIArg.length,
    SIArg.pos SIArg.viscosity], [], [], 0⟩, by decide +kernel, rfl, rfl, ?_, ?_, by simp, by simp⟩
  · intro i k hk
    match i, hk with
    | 0, hk => cases hk; exact ⟨_, rfl, by simp [siSymbols], d0⟩
    | 1, hk => cases hk; exact ⟨_, rfl, by simp [siSymbols], d1⟩
    | 2, hk => cases hk; exact ⟨_, rfl, d, c!"m", 1, rfl⟩
    | 3, hk => cases hk; rcases hm with rfl | rfl <;> [exact ⟨_, rfl, by simp [siSymbols], d3⟩; exact ⟨_, rfl, by simp [siSymbols], d4⟩]
    | n + 4, hk => cases hk
  · intro i k s hk hs
    match i, hk with
    | 0, hk => cases hk; cases hs
    | 1, hk => cases hk; cases hs
    | 2, hk => cases hk; cases hs
    | 3, hk => cases hk; cases hs; rcases hm with rfl | rfl <;> exact hμ
    | n + 4, hk => cases hk

end Verif
