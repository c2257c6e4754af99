import Verif.Lemmas.ConvertErr
import Verif.Props.Convertible

/-! # C18: the exact effect of temperature exponents on a compound conversion -/

namespace Verif

/-- As `SafeUnits`, but temperatures other than Celsius may have any exponent. -/
structure KnownUnits (top bot : UList) : Prop where
  prefixTop : WellPrefixedList top
  prefixBot : WellPrefixedList bot
  celsius : ∀ u ∈ top ++ bot, Spelled [c!"C"] u.unit → u.exp = 1
  psiTop : PsiAlone top
  psiBot : PsiAlone bot

/-- The converted magnitude, temperatures of any exponent included: the original one times the quotient of the errors
made in the temperature units. -/
theorem C18_magnitude_exact (m r : MultiV ℝ) (unit : Sym) (h : convertMulti stdTables m unit = .ok r)
    (hm : KnownUnits m.top m.bot) (hr : KnownUnits r.top r.bot) :
    tempErrs r.top / tempErrs r.bot ≠ 0 ∧ r.mag siR * (tempErrs r.top / tempErrs r.bot) =
      m.mag siR * (tempErrs m.top / tempErrs m.bot) := by
  obtain ⟨hp, hne, -⟩ := convert_units h
  obtain ⟨ct, cb, right, left, lf, rf, tally, h1, h2, h3, h4, h5, h6, h7⟩ := convertMulti_ok h
  rw [hp] at h1; cases h1
  obtain ⟨sl⟩ := stages_of_ok h3 h4
  obtain ⟨sr⟩ := stages_of_ok h2 h5
  have e1 := sl.size_err hm.1 hm.2 hm.3 hm.4 hm.5
  have e2 := sr.size_err hr.1 hr.2 hr.3 hr.4 hr.5
  have hv : r.value = m.value * (lf / rf) := by
    unfold mkMulti at h7
    rw [if_neg hne, hp] at h7
    simp only [Except.ok.injEq] at h7
    rw [← h7]
  have h0 : tempErrs r.top / tempErrs r.bot ≠ 0 := by
    intro h0; rw [h0, mul_zero] at e2; exact h6 e2
  refine ⟨h0, ?_⟩
  unfold MultiV.mag Verif.mag
  rw [hv, mul_assoc, ← e2, mul_assoc, div_mul_cancel₀ _ h6, e1, ← mul_assoc]

/-- So the conversion is right exactly when the errors on the two sides agree. -/
theorem C18_same_magnitude_iff (m r : MultiV ℝ) (unit : Sym) (h : convertMulti stdTables m unit = .ok r)
    (hm : KnownUnits m.top m.bot) (hr : KnownUnits r.top r.bot) (hv : m.value ≠ 0) :
    r.mag siR = m.mag siR ↔ tempErrs m.top / tempErrs m.bot = tempErrs r.top / tempErrs r.bot := by
  obtain ⟨h0, e⟩ := C18_magnitude_exact m r unit h hm hr
  have hmag : m.mag siR ≠ 0 := mul_ne_zero hv (div_pos (lsize_pos siR_pos _) (lsize_pos siR_pos _)).ne'
  constructor
  · intro hq
    rw [hq] at e
    exact (mul_left_cancel₀ hmag e).symm
  · intro hq
    rw [hq] at e
    exact mul_right_cancel₀ h0 e

/-- In particular it is right whenever the temperature units on the two sides are the same, whatever their exponents. -/
theorem C18_same_temperatures (m r : MultiV ℝ) (unit : Sym) (h : convertMulti stdTables m unit = .ok r)
    (hm : KnownUnits m.top m.bot) (hr : KnownUnits r.top r.bot)
    (ht : (m.top.filter fun u => decide (Spelled temperatureNames u.unit)).Perm
      (r.top.filter fun u => decide (Spelled temperatureNames u.unit)))
    (hb : (m.bot.filter fun u => decide (Spelled temperatureNames u.unit)).Perm
      (r.bot.filter fun u => decide (Spelled temperatureNames u.unit))) : r.mag siR = m.mag siR := by
  obtain ⟨h0, e⟩ := C18_magnitude_exact m r unit h hm hr
  have tn : ∀ T ∈ [c!"K", c!"R", c!"F"], T ∈ temperatureNames := by decide
  have key : ∀ l : UList, tempErrs l = tempErrs (l.filter fun u => decide (Spelled temperatureNames u.unit)) := by
    intro l
    induction l with
    | nil => rfl
    | cons u l ih =>
      by_cases hu : Spelled temperatureNames u.unit
      · rw [List.filter_cons_of_pos (by simpa using hu), tempErrs_cons, tempErrs_cons, ih]
      · rw [List.filter_cons_of_neg (by simpa using hu), tempErrs_cons, ih, tempErr_other, one_mul]
        · rintro ⟨T, hT, hs⟩
          exact hu ⟨T, tn T (by revert hT; simp +contextual), hs⟩
        · rintro ⟨T, hT, hs⟩
          exact hu ⟨T, tn T (by revert hT; simp +contextual), hs⟩
  have perm : ∀ l l' : UList, l.Perm l' → tempErrs l = tempErrs l' := fun l l' hl => (hl.map tempErr).prod_eq
  have e1 : tempErrs m.top = tempErrs r.top := by rw [key, key r.top]; exact perm _ _ ht
  have e2 : tempErrs m.bot = tempErrs r.bot := by rw [key, key r.bot]; exact perm _ _ hb
  rw [e1, e2] at e
  exact mul_right_cancel₀ h0 e

/-- The units of the Stefan-Boltzmann constant, metric and imperial. -/
example : KnownUnits [⟨c!"W", 1⟩] [⟨c!"m", 2⟩, ⟨c!"K", 4⟩] ∧
    KnownUnits [⟨c!"BTU", 1⟩] [⟨c!"hr", 1⟩, ⟨c!"ft", 2⟩, ⟨c!"R", 4⟩] := by
  refine ⟨⟨?_, ?_, ?_, ?_, ?_⟩, ⟨?_, ?_, ?_, ?_, ?_⟩⟩ <;> decide +kernel

/-- Converting the Stefan-Boltzmann constant to imperial units gives (9/5)³ = 5.8 times the right magnitude. -/
theorem C18_radiation_false (v : ℝ) (r : MultiV ℝ)
    (h : convertMulti stdTables ⟨.multi, v, [⟨c!"W", 1⟩], [⟨c!"m", 2⟩, ⟨c!"K", 4⟩]⟩ c!"BTU/hr*ft^2*R^4" = .ok r) :
    r.mag siR = (5 / 9) ^ (-3 : ℝ) * MultiV.mag siR ⟨.multi, v, [⟨c!"W", 1⟩], [⟨c!"m", 2⟩, ⟨c!"K", 4⟩]⟩ := by
  have hp : parseUnits c!"BTU/hr*ft^2*R^4" = .ok ([⟨c!"BTU", 1⟩], [⟨c!"hr", 1⟩, ⟨c!"ft", 2⟩, ⟨c!"R", 4⟩]) := by
    decide +kernel
  obtain ⟨hp', -, -⟩ := convert_units h
  rw [hp] at hp'
  simp only [Except.ok.injEq, Prod.mk.injEq] at hp'
  obtain ⟨-, e⟩ := C18_magnitude_exact _ r _ h (by refine ⟨?_, ?_, ?_, ?_, ?_⟩ <;> dsimp only <;> decide +kernel)
    (by rw [← hp'.1, ← hp'.2]; refine ⟨?_, ?_, ?_, ?_, ?_⟩ <;> decide +kernel)
  have plain : ∀ u : BaseUnit, u.unit ∈ [c!"W", c!"m", c!"BTU", c!"hr", c!"ft"] → tempErr u = 1 := by
    intro u hu
    have : ∀ s ∈ [c!"W", c!"m", c!"BTU", c!"hr", c!"ft"], ¬ Spelled [c!"K"] s ∧ ¬ Spelled [c!"R", c!"F"] s := by
      decide +kernel
    exact tempErr_other (this _ hu).1 (this _ hu).2
  have hK : tempErr ⟨c!"K", 4⟩ = 4 := by
    have : Spelled [c!"K"] c!"K" := by decide +kernel
    simp only [tempErr, this, if_true]; norm_num
  have hR : tempErr ⟨c!"R", 4⟩ = 4 * (5 / 9) ^ (-3 : ℝ) := by
    have h1 : ¬ Spelled [c!"K"] c!"R" := by decide +kernel
    have h2 : Spelled [c!"R", c!"F"] c!"R" := by decide +kernel
    simp only [tempErr, h1, h2, if_true, if_false]; norm_num
  rw [← hp'.1, ← hp'.2] at e
  simp only [tempErrs_cons, tempErrs_nil, hK, hR, plain ⟨c!"W", 1⟩ (by decide), plain ⟨c!"m", 2⟩ (by decide),
    plain ⟨c!"BTU", 1⟩ (by decide), plain ⟨c!"hr", 1⟩ (by decide), plain ⟨c!"ft", 2⟩ (by decide)] at e
  have h9 : (0 : ℝ) < (5 / 9) ^ (-3 : ℝ) := Real.rpow_pos_of_pos (by norm_num) _
  generalize MultiV.mag siR r = a at *
  generalize (5 / 9 : ℝ) ^ (-3 : ℝ) = k at *
  field_simp at e
  linarith

/-- That conversion does return, for every value. -/
example (v : ℝ) : ∃ r, convertMulti stdTables ⟨.multi, v, [⟨c!"W", 1⟩], [⟨c!"m", 2⟩, ⟨c!"K", 4⟩]⟩ c!"BTU/hr*ft^2*R^4" =
    .ok r :=
  (C76_convertible_iff_partial _ _ [⟨c!"BTU", 1⟩] [⟨c!"hr", 1⟩, ⟨c!"ft", 2⟩, ⟨c!"R", 4⟩] (by decide +kernel)
    (by dsimp only; decide +kernel) (by decide +kernel)).2 (by dsimp only; decide +kernel)

end Verif
