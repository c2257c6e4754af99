import Verif.Reactions.Parameters
import Verif.Tactic.UnitsEval
import Verif.Spec.SI
import Verif.Lemmas.Construct
import Verif.Lemmas.Cast

/-!
# C36: the Arrhenius equation
-/

namespace Verif

def eaSI (x : ℝ) : PyM (Val ℝ) := qM c!"ActivationEnergy" x c!"J/mol"
def eaKJ (x : ℝ) : PyM (Val ℝ) := qM c!"ActivationEnergy" x c!"kJ/mol"
def gasJ (x : ℝ) : PyM (Val ℝ) := qMulti x c!"J/mol*K"

section
variable (fmt : ℚ → Sym) (order : ℚ) (A : ℝ) (Ea R : MultiV ℝ) (T : UnitV ℝ) (k : MultiV ℝ)

theorem arrhenius_k : arrhenius fmt order [.num A, .multi Ea, .multi R, .unit T] [] =
    match arrheniusA fmt order (pnum A) with
    | .error e => .error e
    | .ok a => .ok a * pyExp ((-.ok (.multi Ea)) / (.ok (.multi R) * .ok (.unit T))) := rfl
theorem arrhenius_Ea : arrhenius fmt order [.num A, .none, .multi R, .unit T, .multi k] [] =
    match arrheniusA fmt order (pnum A) with
    | .error e => .error e
    | .ok a => (-(pyLog (.ok (.multi k) / .ok a))) * .ok (.multi R) * .ok (.unit T) := rfl
theorem arrhenius_T : arrhenius fmt order [.num A, .multi Ea, .multi R, .none, .multi k] [] =
    match arrheniusA fmt order (pnum A) with
    | .error e => .error e
    | .ok a => pnum 1 / ((pyLog (.ok (.multi k) / .ok a) * .ok (.multi R)) / (-.ok (.multi Ea))) := rfl
theorem arrhenius_A : arrhenius fmt order [.none, .multi Ea, .multi R, .unit T, .multi k] [] =
    match arrheniusA fmt order pNone with
    | .error e => .error e
    | .ok _ => .ok (.multi k) / pyExp ((-.ok (.multi Ea)) / .ok (.multi R) * .ok (.unit T)) := rfl

/-- The pre-exponential factor becomes a plain MultiUnit; its units do not depend on its value. -/
theorem arrheniusA_shape : (∃ e, ∀ A, arrheniusA fmt order (pnum A) = .error e ∧ arrheniusA fmt order pNone = .error e) ∨
    ∃ t b, (∀ A, arrheniusA fmt order (pnum A) = .ok (.multi ⟨.multi, A, t, b⟩)) ∧
      arrheniusA fmt order pNone = .ok .none := by
  unfold arrheniusA
  simp only [pnum, pNone]
  cases arrheniusUnits ℝ fmt order with
  | error e => exact Or.inl ⟨e, fun _ => ⟨rfl, rfl⟩⟩
  | ok u =>
    by_cases hu : u = []
    · exact Or.inr ⟨[], [], fun _ => by simp [qMulti, mkMulti, hu], by simp [qMulti, mkMulti, hu]⟩
    · simp only [qMulti, mkMulti, hu, if_false]
      cases parseUnits u with
      | error e => exact Or.inl ⟨e, fun _ => ⟨rfl, rfl⟩⟩
      | ok p => exact Or.inr ⟨p.1, p.2, fun _ => rfl, rfl⟩

end

/-- Solving for k gives `A exp(-Ea / R T)` in the units of A, or fails because the unit string of the order is not
accepted. -/
theorem C36_rate_constant (fmt : ℚ → Sym) (order : ℚ) (A ea r t : ℝ) (hr : r ≠ 0) (ht : t ≠ 0) :
    pcall (arrhenius fmt order · []) [pnum A, eaSI ea, gasJ r, tempSI t] =
      arrheniusA fmt order (pnum (A * Real.exp (-ea / (r * t)))) := by
  have hrt : t * r ≠ 0 := mul_ne_zero ht hr
  rcases arrheniusA_shape fmt order with ⟨e, he⟩ | ⟨tt, bb, h, -⟩
  · simp only [pnum] at he
    units_eval [eaSI, gasJ, tempSI, arrhenius_k, fun A => (he A).1]
  · simp only [pnum] at h
    units_eval [eaSI, gasJ, tempSI, arrhenius_k, h, pyDiv_ne hrt]
    exact okMulti_congr (by rw [mul_comm t r])

/-- Solving for the activation energy with the returned rate constant recovers it, for every order (whatever units the
order gives the rate constant). -/
theorem C36_activation_energy (fmt : ℚ → Sym) (order : ℚ) (A ea r t : ℝ) (hA : 0 < A) (hr : r ≠ 0) (ht : t ≠ 0)
    (k : Val ℝ) (hk : pcall (arrhenius fmt order · []) [pnum A, eaSI ea, gasJ r, tempSI t] = .ok k) :
    pcall (arrhenius fmt order · []) [pnum A, pNone, gasJ r, tempSI t, .ok k] = qMulti ea c!"J/mol" := by
  rw [C36_rate_constant fmt order A ea r t hr ht] at hk
  have hrt : t * r ≠ 0 := mul_ne_zero ht hr
  rcases arrheniusA_shape fmt order with ⟨e, he⟩ | ⟨tt, bb, h, -⟩
  · rw [(he _).1] at hk
    cases hk
  · rw [h] at hk
    obtain rfl := Except.ok.inj hk
    simp only [pnum] at h
    have hp : 0 < A * Real.exp (-ea / (r * t)) / A := by positivity
    units_eval [gasJ, tempSI, arrhenius_Ea, h, hA.ne', pyLog_num hp]
    refine okMulti_congr ?_
    rw [mul_div_right_comm, div_self hA.ne', one_mul, Real.log_exp]
    field_simp

/-- Solving for the temperature raises TypeError whenever the unit string of the order is accepted: the expression ends
in `1 / Unit`, which is not defined. -/
theorem C36_temperature_raises (fmt : ℚ → Sym) (order : ℚ) (A ea r t : ℝ) (hA : 0 < A) (hr : r ≠ 0) (ht : t ≠ 0)
    (he : ea ≠ 0) (k : Val ℝ) (hk : pcall (arrhenius fmt order · []) [pnum A, eaSI ea, gasJ r, tempSI t] = .ok k) :
    pcall (arrhenius fmt order · []) [pnum A, eaSI ea, gasJ r, pNone, .ok k] = .error .typeError := by
  rw [C36_rate_constant fmt order A ea r t hr ht] at hk
  rcases arrheniusA_shape fmt order with ⟨e, he⟩ | ⟨tt, bb, h, -⟩
  · rw [(he _).1] at hk
    cases hk
  · rw [h] at hk
    obtain rfl := Except.ok.inj hk
    simp only [pnum] at h
    have hp : 0 < A * Real.exp (-ea / (r * t)) / A := by positivity
    have hn : -ea ≠ 0 := neg_ne_zero.mpr he
    units_eval [gasJ, eaSI, arrhenius_T, h, hA.ne', pyLog_num hp, pyDiv_ne hn]

/-- Solving for A raises TypeError whenever the unit string of the order is accepted: `-Ea / R * T` is a quantity in K^2,
which `exp` refuses. -/
theorem C36_factor_raises (fmt : ℚ → Sym) (order : ℚ) (A ea r t : ℝ) (hr : r ≠ 0) (ht : t ≠ 0) (k : Val ℝ)
    (hk : pcall (arrhenius fmt order · []) [pnum A, eaSI ea, gasJ r, tempSI t] = .ok k) :
    pcall (arrhenius fmt order · []) [pNone, eaSI ea, gasJ r, tempSI t, .ok k] = .error .typeError := by
  rw [C36_rate_constant fmt order A ea r t hr ht] at hk
  rcases arrheniusA_shape fmt order with ⟨e, he⟩ | ⟨tt, bb, h, h'⟩
  · rw [(he _).1] at hk
    cases hk
  · rw [h] at hk
    obtain rfl := Except.ok.inj hk
    simp only [pNone] at h'
    units_eval [gasJ, eaSI, tempSI, arrhenius_A, h', pyDiv_ne hr]
    rfl

/-- Zero and first order: the units are accepted. -/
theorem C36_orders (fmt : ℚ → Sym) (A : ℝ) :
    arrheniusA fmt 0 (pnum A) = qMulti A c!"mol/L*s" ∧ arrheniusA fmt 1 (pnum A) = qMulti A c!"s^-1" := by
  constructor <;> rfl

/-- An activation energy in kJ/mol is understood. -/
theorem C36_rate_constant_kJ (fmt : ℚ → Sym) (order : ℚ) (A ea r t : ℝ) (hr : r ≠ 0) (ht : t ≠ 0) :
    pcall (arrhenius fmt order · []) [pnum A, eaKJ ea, gasJ r, tempSI t] =
      arrheniusA fmt order (pnum (A * Real.exp (-(1000 * ea) / (r * t)))) := by
  have hrt : t * r ≠ 0 := mul_ne_zero ht hr
  rcases arrheniusA_shape fmt order with ⟨e, he⟩ | ⟨tt, bb, h, -⟩
  · simp only [pnum] at he
    units_eval [eaKJ, gasJ, tempSI, arrhenius_k, fun A => (he A).1]
  · simp only [pnum] at h
    units_eval [eaKJ, gasJ, tempSI, arrhenius_k, h, pyDiv_ne hrt]
    refine okMulti_congr ?_
    congr 2
    push_cast
    field_simp

/-- Full statement: the temperature is recovered as well.  It never is. -/
theorem C36_temperature_false : ¬ ∀ (fmt : ℚ → Sym) (order : ℚ) (A ea r t : ℝ), 0 < A → 0 < ea → 0 < r → 0 < t →
    ∀ k, pcall (arrhenius fmt order · []) [pnum A, eaSI ea, gasJ r, tempSI t] = .ok k →
      ∃ v, pcall (arrhenius fmt order · []) [pnum A, eaSI ea, gasJ r, pNone, .ok k] = .ok v := by
  intro h
  have hk : ∃ k, pcall (arrhenius (fun _ => []) 1 · []) [pnum 1, eaSI 1, gasJ 1, tempSI 1] = .ok k := by
    rw [C36_rate_constant _ _ _ _ _ _ one_ne_zero one_ne_zero, (C36_orders _ _).2]
    exact ⟨_, rfl⟩
  obtain ⟨k, hk⟩ := hk
  obtain ⟨v, hv⟩ := h (fun _ => []) 1 1 1 1 1 one_pos one_pos one_pos one_pos k hk
  rw [C36_temperature_raises _ _ _ _ _ _ one_pos one_ne_zero one_ne_zero one_ne_zero k hk] at hv
  cases hv

/-- Full statement: the pre-exponential factor is recovered as well.  It never is. -/
theorem C36_factor_false : ¬ ∀ (fmt : ℚ → Sym) (order : ℚ) (A ea r t : ℝ), 0 < A → 0 < ea → 0 < r → 0 < t →
    ∀ k, pcall (arrhenius fmt order · []) [pnum A, eaSI ea, gasJ r, tempSI t] = .ok k →
      ∃ v, pcall (arrhenius fmt order · []) [pNone, eaSI ea, gasJ r, tempSI t, .ok k] = .ok v := by
  intro h
  have hk : ∃ k, pcall (arrhenius (fun _ => []) 1 · []) [pnum 1, eaSI 1, gasJ 1, tempSI 1] = .ok k := by
    rw [C36_rate_constant _ _ _ _ _ _ one_ne_zero one_ne_zero, (C36_orders _ _).2]
    exact ⟨_, rfl⟩
  obtain ⟨k, hk⟩ := hk
  obtain ⟨v, hv⟩ := h (fun _ => []) 1 1 1 1 1 one_pos one_pos one_pos one_pos k hk
  rw [C36_factor_raises _ _ _ _ _ _ one_ne_zero one_ne_zero k hk] at hv
  cases hv

/-- Non-vacuity: the docstring example, first order, 89000 J/mol at 350 K. -/
example (fmt : ℚ → Sym) : pcall (arrhenius fmt 1 · []) [pnum (10 ^ 19), eaSI 89000, gasJ (8314 / 1000), tempSI 350] =
    qMulti (10 ^ 19 * Real.exp (-89000 / (8314 / 1000 * 350))) c!"s^-1" := by
  rw [C36_rate_constant _ _ _ _ _ _ (by norm_num) (by norm_num), (C36_orders _ _).2]

/-- The gas constant cannot be solved for, whatever else is given. -/
theorem C36_gas_constant (fmt : ℚ → Sym) (order : ℚ) (A Ea T k : Val ℝ) :
    arrhenius fmt order [A, Ea, .none, T, k] [] = .error .solutionNotSupported := by
  have h : c!"R" ∈ noneNames Val.isNone (arrheniusSig.names.zip ([.num (order : ℝ), A, Ea, .none, T, k] ++ [] ++ [.none])) := by
    simp [noneNames, arrheniusSig, Val.isNone]
  unfold arrhenius solvableFor
  simp only [arrheniusSig] at h ⊢
  rw [if_pos]
  exact List.any_eq_true.2 ⟨_, h, by decide⟩

end Verif
