import Verif.Tactic.UnitsEval
import Verif.HeatTransfer.Exchangers
import Verif.Spec.SI
import Mathlib.Analysis.Complex.ExponentialBounds

/-!
# C44: log mean temperature difference
-/

namespace Verif

/-! ## Specification: the logarithmic mean -/

/-- Logarithmic mean of two numbers. -/
noncomputable def logMean (a b : ℝ) : ℝ := (a - b) / Real.log (a / b)

theorem logMean_aux {a b : ℝ} (hb : 0 < b) (hab : b < a) : b < logMean a b ∧ logMean a b < a := by
  have ha : 0 < a := hb.trans hab
  have h1 : 1 < a / b := (one_lt_div hb).2 hab
  have hlog : 0 < Real.log (a / b) := Real.log_pos h1
  have h2 : Real.log (a / b) < a / b - 1 := Real.log_lt_sub_one_of_pos (by positivity) h1.ne'
  have h3 : Real.log (b / a) < b / a - 1 :=
    Real.log_lt_sub_one_of_pos (by positivity) (by rw [Ne, div_eq_one_iff_eq ha.ne']; exact hab.ne)
  have h4 : Real.log (b / a) = -Real.log (a / b) := by rw [← Real.log_inv, inv_div]
  constructor
  · rw [logMean, lt_div_iff₀ hlog]
    have := mul_lt_mul_of_pos_left h2 hb
    rw [mul_sub, mul_div_cancel₀ _ hb.ne', mul_one] at this
    exact this
  · rw [logMean, div_lt_iff₀ hlog]
    have := mul_lt_mul_of_pos_left h3 ha
    rw [mul_sub, mul_div_cancel₀ _ ha.ne', mul_one, h4] at this
    linarith

theorem logMean_comm {a b : ℝ} : logMean a b = logMean b a := by
  rw [logMean, logMean, ← neg_div_neg_eq, neg_sub, ← Real.log_inv, inv_div]

/-- The logarithmic mean of distinct positive numbers lies strictly between them. -/
theorem logMean_between {a b : ℝ} (ha : 0 < a) (hb : 0 < b) (hab : a ≠ b) :
    min a b < logMean a b ∧ logMean a b < max a b := by
  rcases lt_or_gt_of_ne hab with h | h
  · rw [min_eq_left h.le, max_eq_right h.le, logMean_comm]; exact logMean_aux ha h
  · rw [min_eq_right h.le, max_eq_left h.le]; exact logMean_aux hb h

/-! ## C44 -/

/-- Counter-current flow: the logarithmic mean of the end differences, for temperatures in any one unit. -/
theorem C44_counter_value (s : Sym) (t0a t1a t0b t1b : ℝ) (ha : 0 < t0a - t1b) (hb : 0 < t1a - t0b)
    (hab : t0a - t1b ≠ t1a - t0b) :
    deltatLogmean (qU .temperature t0a s) (qU .temperature t1a s) (qU .temperature t0b s) (qU .temperature t1b s)
      = qU .temperature (logMean (t0a - t1b) (t1a - t0b)) s := by
  have hq := div_pos ha hb
  have hlog : Real.log ((t0a - t1b) / (t1a - t0b)) ≠ 0 := by
    apply Real.log_ne_zero_of_pos_of_ne_one hq
    rwa [Ne, div_eq_one_iff_eq hb.ne']
  units_eval [deltatLogmean, pyLog_num hq, hlog, hb.ne', Bool.false_eq_true]
  rfl

/-- C44 for counter-current flow. Missing: co-current flow, where it is false (`C44_cocurrent_false`). -/
theorem C44_counter_between_partial (s : Sym) (t0a t1a t0b t1b : ℝ) (ha : 0 < t0a - t1b) (hb : 0 < t1a - t0b)
    (hab : t0a - t1b ≠ t1a - t0b) :
    ∃ T, deltatLogmean (qU .temperature t0a s) (qU .temperature t1a s) (qU .temperature t0b s) (qU .temperature t1b s)
        = qU .temperature T s ∧
      min (t0a - t1b) (t1a - t0b) < T ∧ T < max (t0a - t1b) (t1a - t0b) :=
  ⟨_, C44_counter_value s t0a t1a t0b t1b ha hb hab, logMean_between ha hb hab⟩

/-- Equal end differences raise ZeroDivisionError. -/
theorem C44_equal_ends (s : Sym) (t0a t1a t0b t1b : ℝ) (ha : 0 < t0a - t1b) (hab : t0a - t1b = t1a - t0b) :
    deltatLogmean (qU .temperature t0a s) (qU .temperature t1a s) (qU .temperature t0b s) (qU .temperature t1b s)
      = .error .zeroDivision := by
  have hb := hab ▸ ha
  have hq := div_pos ha hb
  units_eval [deltatLogmean, pyLog_num hq, hb.ne', Bool.false_eq_true]
  simp only [pyDiv, hab, div_self hb.ne', Real.log_one, if_true]

/-- Co-current flow, as coded: the first difference is replaced by the inlet temperature of side B. -/
theorem C44_cocurrent_value (s : Sym) (t0a t1a t0b t1b : ℝ) (ha : 0 < t0b) (hb : 0 < t1a - t1b)
    (hab : t0b ≠ t1a - t1b) :
    deltatLogmean (qU .temperature t0a s) (qU .temperature t1a s) (qU .temperature t0b s) (qU .temperature t1b s) true
      = qU .temperature (logMean t0b (t1a - t1b)) s := by
  have hq := div_pos ha hb
  have hlog : Real.log (t0b / (t1a - t1b)) ≠ 0 := by
    apply Real.log_ne_zero_of_pos_of_ne_one hq
    rwa [Ne, div_eq_one_iff_eq hb.ne']
  units_eval [deltatLogmean, pyLog_num hq, hlog, hb.ne', Bool.false_eq_true]
  rfl

/-- In co-current flow the inlet temperature of side A is ignored. -/
theorem C44_cocurrent_ignores_T0A (T0A T0A' T1A T0B T1B : PyM (Val ℝ)) :
    deltatLogmean T0A T1A T0B T1B true = deltatLogmean T0A' T1A T0B T1B true := rfl

/-- Co-current flow: the result is not between the end differences. Witness: differences 2 and 1 with side B entering at
e² gives (e² - 1)/2 > 2. -/
theorem C44_cocurrent_false :
    ¬ ∀ t0a t1a t0b t1b : ℝ, 0 < t0a - t0b → 0 < t1a - t1b → t0a - t0b ≠ t1a - t1b →
      ∃ T, deltatLogmean (tempSI t0a) (tempSI t1a) (tempSI t0b) (tempSI t1b) true = tempSI T ∧
        min (t0a - t0b) (t1a - t1b) < T ∧ T < max (t0a - t0b) (t1a - t1b) := by
  intro h
  have he : (5 : ℝ) < Real.exp 2 := by
    have h1 := Real.exp_one_gt_d9
    have h2 : Real.exp 2 = Real.exp 1 * Real.exp 1 := by rw [← Real.exp_add]; norm_num
    rw [h2]; nlinarith
  obtain ⟨T, h1, -, h2⟩ := h (Real.exp 2 + 2) 1 (Real.exp 2) 0 (by norm_num) (by norm_num) (by norm_num)
  simp only [tempSI] at h1
  rw [C44_cocurrent_value c!"K" _ 1 _ 0 (Real.exp_pos 2) (by norm_num) (by rw [sub_zero]; linarith)] at h1
  simp only [qU, mkUnit_temperature, Except.ok.injEq, Val.unit.injEq, UnitV.mk.injEq, true_and, and_true] at h1
  rw [← h1, logMean] at h2
  simp only [sub_zero, div_one, Real.log_exp] at h2
  rw [add_sub_cancel_left, max_eq_left (by norm_num)] at h2
  linarith

/-- Non-vacuity: a counter-current exchanger in degrees Celsius with end differences 40 and 20. -/
example : ∃ T, deltatLogmean (qU .temperature 100 c!"C") (qU .temperature 60 c!"C") (qU .temperature 40 c!"C")
    (qU .temperature 60 c!"C") = qU .temperature T c!"C" ∧ min (100 - 60) (60 - 40) < T ∧ T < max (100 - 60) (60 - 40) :=
  C44_counter_between_partial c!"C" 100 60 40 60 (by norm_num) (by norm_num) (by norm_num)

end Verif
