import Verif.Lemmas.ForeignTypes
import Verif.Spec.ForeignTable
import Verif.Props.Faults

/-!
# C118: the formulas work in units of the user's choice
-/

namespace Verif
open Code

theorem foreignTable_passes : ∀ t ∈ allForeignTable,
    (codedFormulas.any fun f => decide (f.name = t.name) && t.passes f.code) = true := by
  decide +kernel

theorem FCall.found {t : FCall} (ht : t ∈ allForeignTable) : ∃ f ∈ codedFormulas, f.name = t.name ∧
    t.passes f.code = true := by
  obtain ⟨f, hf, h⟩ := List.any_eq_true.1 (foreignTable_passes t ht)
  simp only [Bool.and_eq_true, decide_eq_true_eq] at h
  exact ⟨f, hf, h.1, h.2⟩

/-- Every row of the table, every set of units, every arrangement of the units in the arguments and all numbers: the call
raises the first exception that the expression raises on the plain numbers; when there is none it returns the value of the
expression, in units of the set and of the dimension of the row, as a number if there is none. -/
theorem C118_faults : ∀ t ∈ allForeignTable, ∃ f ∈ codedFormulas, f.name = t.name ∧
    ∀ (S : UnitSet) (a : ℕ → Val ℝ), t.Fits S a →
      (∀ e, f.code.fault (fun i => (a i).amount) = some e → f.model a = .error e) ∧
      (f.code.fault (fun i => (a i).amount) = none → ∃ r, f.model a = .ok r ∧ S.Gives t.result r ∧
        r.amount = f.code.eval fun i => (a i).amount) := by
  intro t ht
  obtain ⟨f, hf, h1, h2⟩ := FCall.found ht
  exact ⟨f, hf, h1, FCall.follows_of (C82_formulas f hf) (FCall.fits_of_passes h2)⟩

/-- With the signs of the row the call returns. -/
theorem C118_returns : ∀ t ∈ allForeignTable, ∃ f ∈ codedFormulas, f.name = t.name ∧
    ∀ (S : UnitSet) (a : ℕ → Val ℝ), t.Admits S a → ∃ r, f.model a = .ok r ∧ S.Gives t.result r ∧
      r.amount = f.code.eval fun i => (a i).amount := by
  intro t ht
  obtain ⟨f, hf, h1, h2⟩ := FCall.found ht
  exact ⟨f, hf, h1, fun S a ha => (FCall.follows_of (C82_formulas f hf) (FCall.fits_of_passes h2) S a ha.toFits).2 (ha.safe h2)⟩

/-- The same numbers in two sets of units give the same number, or the same exception. -/
theorem C118_any_set : ∀ t ∈ allForeignTable, ∃ f ∈ codedFormulas, f.name = t.name ∧
    ∀ (S S' : UnitSet) (a b : ℕ → Val ℝ), t.Fits S a → t.Fits S' b → (∀ i, (a i).amount = (b i).amount) →
      (∀ e, f.model a = .error e ↔ f.model b = .error e) ∧
      ∀ r, f.model a = .ok r → ∃ r', f.model b = .ok r' ∧ r.amount = r'.amount ∧ S.Gives t.result r ∧
        S'.Gives t.result r' := by
  intro t ht
  obtain ⟨f, hf, h1, h2⟩ := C118_faults t ht
  refine ⟨f, hf, h1, fun S S' a b ha hb hab => ?_⟩
  have hn : (fun i => (a i).amount) = fun i => (b i).amount := funext hab
  obtain ⟨ae, ao⟩ := h2 S a ha
  obtain ⟨be, bo⟩ := h2 S' b hb
  rw [← hn] at be bo
  cases hk : f.code.fault fun i => (a i).amount with
  | some e' => simp [ae e' hk, be e' hk]
  | none =>
    obtain ⟨r, r1, r2, r3⟩ := ao hk
    obtain ⟨r', r1', r2', r3'⟩ := bo hk
    refine ⟨by simp [r1, r1'], fun x hx => ⟨r', r1', ?_⟩⟩
    rw [r1] at hx
    cases hx
    exact ⟨by rw [r3, r3'], r2, r2'⟩

/-- The same numbers in SI units and in units of the set give the same number, or the same exception. -/
theorem C118_as_si : ∀ t ∈ allForeignTable, ∀ s ∈ callTable ++ oddCallTable, s.name = t.name →
    ∃ f ∈ codedFormulas, f.name = t.name ∧ ∀ (S : UnitSet) (a b : ℕ → Val ℝ), t.Fits S a → s.Fits b →
      (∀ i, (a i).amount = (b i).amount) →
        (∀ e, f.model a = .error e ↔ f.model b = .error e) ∧
        ∀ r, f.model a = .ok r → ∃ r', f.model b = .ok r' ∧ r.amount = r'.amount := by
  intro t ht s hs hn
  obtain ⟨f, hf, h1, h2⟩ := C118_faults t ht
  obtain ⟨g, hg, g1, g2⟩ := C117_faults s hs
  obtain rfl : f = g := List.inj_on_of_nodup_map codedFormulas_names hf hg (h1.trans (hn.symm.trans g1.symm))
  refine ⟨f, hf, h1, fun S a b ha hb hab => ?_⟩
  have hn : (fun i => (a i).amount) = fun i => (b i).amount := funext hab
  obtain ⟨ae, ao⟩ := h2 S a ha
  obtain ⟨be, bo⟩ := g2 b hb
  rw [← hn] at be bo
  cases hk : f.code.fault fun i => (a i).amount with
  | some e' => simp [ae e' hk, be e' hk]
  | none =>
    obtain ⟨r, r1, r2, r3⟩ := ao hk
    obtain ⟨r', r1', -, -, -, r3'⟩ := bo hk
    refine ⟨by simp [r1, r1'], fun x hx => ⟨r', r1', ?_⟩⟩
    rw [r1] at hx
    cases hx
    rw [r3, r3']

/-- The logarithmic mean temperature difference, of which C99 says nothing: it raises the exception of the plain arithmetic or
returns its value in degrees of the set. -/
theorem C118_logmean (S : UnitSet) (a : ℕ → Val ℝ) (ha : logmeanCall.Fits S a) :
    let c : Code := ((var 0 - var 3) - (var 1 - var 2)) / fn .log ((var 0 - var 3) / (var 1 - var 2))
    (∀ e, c.fault (fun i => (a i).amount) = some e → deltatLogmean (.ok (a 0)) (.ok (a 1)) (.ok (a 2)) (.ok (a 3)) = .error e) ∧
    (c.fault (fun i => (a i).amount) = none → ∃ r, deltatLogmean (.ok (a 0)) (.ok (a 1)) (.ok (a 2)) (.ok (a 3)) = .ok r ∧
      S.Gives FArg.temperatureDim r ∧ r.amount = c.eval fun i => (a i).amount) :=
  FCall.follows_of (t := logmeanCall) (C82_formulas ⟨c!"deltat_logmean", _, fun a =>
    deltatLogmean (.ok (a 0)) (.ok (a 1)) (.ok (a 2)) (.ok (a 3))⟩ (by simp [codedFormulas])) (by decide +kernel) S a ha

/-- Which formulas the tables leave out: those with a constant in SI units. -/
theorem C118_covers : ∀ f ∈ codedFormulas, (∃ t ∈ logmeanCall :: allForeignTable, t.name = f.name) ∨
    f.name ∈ [c!"K_from_standard", c!"stokes_einstein", c!"ionic_diffusion_coefficient"] := by
  have : (codedFormulas.all fun f => (logmeanCall :: allForeignTable).any (fun t => decide (t.name = f.name)) ||
      decide (f.name ∈ [c!"K_from_standard", c!"stokes_einstein", c!"ionic_diffusion_coefficient"])) = true := by decide +kernel
  intro f hf
  have := List.all_eq_true.1 this f hf
  simpa only [Bool.or_eq_true, List.any_eq_true, decide_eq_true_eq] using this

/-! ## English units -/

/-- Decides `Untouched`. -/
def foreignB (s : Sym) : Bool :=
  (match s with
  | [_] => true
  | c :: _ :: _ => siPrefixes.all fun p => decide (p.1 ≠ c)
  | [] => false) && decide (s ∉ derivedNames) && decide (s ∉ [c!"kg", c!"lbf", c!"g", c!"A"])

theorem foreignB_spec {s : Sym} (h : foreignB s = true) : Untouched s := by
  simp only [foreignB, Bool.and_eq_true, decide_eq_true_eq] at h
  refine ⟨?_, h.1.2, h.2⟩
  match s, h.1.1 with
  | [c], _ => exact .inr (.inr (.inr (.inr (.inl ⟨c, rfl⟩))))
  | c :: d :: l, h => exact .inr (.inr (.inr (.inr (.inr ⟨c, d :: l, rfl, fun p hp => by simpa using List.all_eq_true.1 h p hp⟩))))

def englishSym : Slot → Sym
  | .length => c!"ft"
  | .mass => c!"lb"
  | .time => c!"hr"
  | .temperature => c!"F"
  | .energy => c!"BTU"
  | .amount => c!"lbmol"

/-- Feet, pounds, hours, degrees Fahrenheit, British thermal units and pound moles. -/
def english : UnitSet where
  sym := englishSym
  foreign := fun i => foreignB_spec (by cases i <;> decide +kernel)
  inj := by
    intro i j h
    have : ∀ i ∈ Slot.all, ∀ j ∈ Slot.all, englishSym i = englishSym j → i = j := by decide +kernel
    exact this i (UnitSet.slot_all i) j (UnitSet.slot_all j) h

theorem english_is {d : Dim} {c : MCls} {v : ℝ} {t b : UList} (hm : ∀ u ∈ t ++ b, english.Mem u.unit ∧ 0 ≤ u.exp)
    (hd : net english.dim t b = d) : (FKind.compound d).Is english (.multi ⟨c, v, t, b⟩) := ⟨⟨c, v, t, b⟩, rfl, hm, hd⟩

/-- `biot` with `h` in `BTU/(hr*ft^2*F)`, a length in feet and `k` in `BTU/(hr*ft*F)`, written in any order and with any
repetitions, is a number: `h L / k`. -/
theorem C118_biot (h L k : ℝ) (hk : k ≠ 0) (ht hb kt kb : UList) (c c' : MCls)
    (hh : (FKind.compound FArg.htcDim).Is english (.multi ⟨c, h, ht, hb⟩))
    (hc : (FKind.compound FArg.conductivityDim).Is english (.multi ⟨c', k, kt, kb⟩)) :
    biot (K := ℝ) (.ok (.multi ⟨c, h, ht, hb⟩)) (.ok (.unit ⟨.length, L, c!"ft", 1⟩)) (.ok (.multi ⟨c', k, kt, kb⟩)) =
      .ok (.num (h * L / k)) := by
  obtain ⟨f, hf, h1, h2⟩ := C118_faults ⟨c!"biot", [FArg.any FArg.htc, FArg.any FArg.length, FArg.pos FArg.conductivity],
    [], [], 0⟩ (by decide +kernel)
  have hm : f = ⟨c!"biot", (.var 0 * .var 1) / .var 2, fun a => biot (.ok (a 0)) (.ok (a 1)) (.ok (a 2))⟩ :=
    List.inj_on_of_nodup_map codedFormulas_names hf (by simp [codedFormulas]) h1
  subst hm
  obtain ⟨-, h3⟩ := h2 english (fun i => match i with
    | 0 => .multi ⟨c, h, ht, hb⟩
    | 1 => .unit ⟨.length, L, c!"ft", 1⟩
    | _ => .multi ⟨c', k, kt, kb⟩) ⟨fun i κ hκ => (by
      match i, hκ with
      | 0, hκ => (cases hκ; exact hh)
      | 1, hκ => (cases hκ; exact ⟨L, rfl, L, c!"ft", 1, rfl⟩)
      | 2, hκ => (cases hκ; exact hc)
      | n + 3, hκ => cases hκ), by simp⟩
  obtain ⟨r, r1, r2, r3⟩ := h3 (by
    change ((none : Option Err).or (if k = 0 then some Err.zeroDivision else none)) = none
    rw [if_neg hk]; rfl)
  refine r1.trans ?_
  match r, r2, r3 with
  | .num x, _, r3 => exact congrArg (fun y => Except.ok (Val.num y)) (by exact r3)
  | .unit u, r2, _ => exact absurd rfl r2.2.2
  | .multi m, r2, _ => exact absurd rfl r2.2.2

/-- The units must carry no prefix letter: calories are not such a unit.  200 cal/(hr*ft^2) are returned as 2 al/(hr*ft^2). -/
theorem C118_calories : ¬ Untouched c!"cal" ∧
    planarFluxBody (K := ℚ) [(c!"k", .multi ⟨.multi, 100, [⟨c!"cal", 1⟩], [⟨c!"hr", 1⟩, ⟨c!"ft", 1⟩, ⟨c!"F", 1⟩]⟩),
      (c!"T1", .unit ⟨.temperature, 3, c!"F", 1⟩), (c!"T2", .unit ⟨.temperature, 1, c!"F", 1⟩),
      (c!"thickness", .unit ⟨.length, 1, c!"ft", 1⟩), (c!"qA", .none)] (.one c!"qA") =
      .ok (.multi ⟨.multi, 2, [⟨c!"al", 1⟩], [⟨c!"hr", 1⟩, ⟨c!"ft", 2⟩]⟩) := by
  refine ⟨?_, by decide +kernel⟩
  rintro ⟨h, -⟩
  rcases h with h | h | h | h | ⟨x, h⟩ | ⟨x, y, h, hx⟩
  · cases h
  · cases h
  · cases h
  · cases h
  · cases h
  · cases h
    exact hx ('c', 1 / 100) (by simp [siPrefixes]) rfl

/-! ## Non-vacuity -/

/-- A coefficient in `BTU/(hr*ft^2*F)` and in `BTU/(F*ft*hr*ft)`, and a conductivity in `BTU/(hr*ft*F)`. -/
example (h k : ℝ) : (FKind.compound FArg.htcDim).Is english
      (.multi ⟨.multi, h, [⟨c!"BTU", 1⟩], [⟨c!"hr", 1⟩, ⟨c!"ft", 2⟩, ⟨c!"F", 1⟩]⟩) ∧
    (FKind.compound FArg.htcDim).Is english
      (.multi ⟨.multi, h, [⟨c!"BTU", 1⟩], [⟨c!"F", 1⟩, ⟨c!"ft", 1⟩, ⟨c!"hr", 1⟩, ⟨c!"ft", 1⟩]⟩) ∧
    (FKind.compound FArg.conductivityDim).Is english
      (.multi ⟨.multi, k, [⟨c!"BTU", 1⟩], [⟨c!"hr", 1⟩, ⟨c!"ft", 1⟩, ⟨c!"F", 1⟩]⟩) := by
  have m1 : english.Mem c!"BTU" := ⟨.energy, rfl⟩
  have m2 : english.Mem c!"hr" := ⟨.time, rfl⟩
  have m3 : english.Mem c!"ft" := ⟨.length, rfl⟩
  have m4 : english.Mem c!"F" := ⟨.temperature, rfl⟩
  refine ⟨english_is (by simp [m1, m2, m3, m4]) (by decide +kernel), english_is (by simp [m1, m2, m3, m4]) (by decide +kernel),
    english_is (by simp [m1, m2, m3, m4]) (by decide +kernel)⟩

/-- Four temperatures in degrees Fahrenheit. -/
example (x : ℕ → ℝ) : logmeanCall.Fits english fun i => .unit ⟨.temperature, x i, c!"F", 1⟩ :=
  ⟨fun i κ hκ => (by
    match i, hκ with
    | 0, hκ => (cases hκ; exact ⟨x 0, rfl, x 0, c!"F", 1, rfl⟩)
    | 1, hκ => (cases hκ; exact ⟨x 1, rfl, x 1, c!"F", 1, rfl⟩)
    | 2, hκ => (cases hκ; exact ⟨x 2, rfl, x 2, c!"F", 1, rfl⟩)
    | 3, hκ => (cases hκ; exact ⟨x 3, rfl, x 3, c!"F", 1, rfl⟩)
    | n + 4, hκ => cases hκ), by simp [logmeanCall]⟩

/-- Another set: inches, ounces, minutes, kelvin, BTU and moles. -/
example : ∃ S : UnitSet, S.sym .length = c!"in" ∧ S.sym .mass = c!"oz" ∧ S.sym .temperature = c!"K" :=
  ⟨⟨fun i => match i with
    | .length => c!"in"
    | .mass => c!"oz"
    | .time => c!"s"
    | .temperature => c!"K"
    | .energy => c!"BTU"
    | .amount => c!"lbmol", fun i => foreignB_spec (by cases i <;> decide +kernel), fun i j h => by
      cases i <;> cases j <;> first | rfl | (exact absurd h (by decide +kernel))⟩, rfl, rfl, rfl⟩

/-- Rows of the table are admitted: `prandtl` in English units with positive numbers. -/
example (μ cp k : ℝ) (hk : 0 < k) : ∃ t ∈ foreignTable, t.name = c!"prandtl" ∧ t.Admits english fun i => match i with
    | 0 => .multi ⟨.multi, μ, [⟨c!"lb", 1⟩], [⟨c!"ft", 1⟩, ⟨c!"hr", 1⟩]⟩
    | 1 => .multi ⟨.multi, cp, [⟨c!"BTU", 1⟩], [⟨c!"lb", 1⟩, ⟨c!"F", 1⟩]⟩
    | _ => .multi ⟨.multi, k, [⟨c!"BTU", 1⟩], [⟨c!"hr", 1⟩, ⟨c!"ft", 1⟩, ⟨c!"F", 1⟩]⟩ := by
  have m1 : english.Mem c!"BTU" := ⟨.energy, rfl⟩
  have m2 : english.Mem c!"hr" := ⟨.time, rfl⟩
  have m3 : english.Mem c!"ft" := ⟨.length, rfl⟩
  have m4 : english.Mem c!"F" := ⟨.temperature, rfl⟩
  have m5 : english.Mem c!"lb" := ⟨.mass, rfl⟩
  refine ⟨⟨c!"prandtl", [FArg.any FArg.viscosity, FArg.any FArg.heatCapacity, FArg.pos FArg.conductivity], [], [], 0⟩,
    by decide +kernel, rfl, ⟨?_, by simp⟩, ?_, by simp⟩
  · intro i κ hκ
    match i, hκ with
    | 0, hκ => cases hκ; exact english_is (by simp [m2, m3, m5]) (by decide +kernel)
    | 1, hκ => cases hκ; exact english_is (by simp [m1, m4, m5]) (by decide +kernel)
    | 2, hκ => cases hκ; exact english_is (by simp [m1, m2, m3, m4]) (by decide +kernel)
    | n + 3, hκ => cases hκ
  · intro i κ s hκ hs
    match i, hκ with
    | 0, hκ => cases hκ; cases hs
    | 1, hκ => cases hκ; cases hs
    | 2, hκ => cases hκ; cases hs; exact hk
    | n + 3, hκ => cases hκ

end Verif
