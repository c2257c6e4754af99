import Verif.MassTransfer.Coefficients
import Verif.Tactic.UnitsEval
import Verif.Spec.SI
import Verif.Lemmas.Construct

/-! # C59: correlations called with plain numbers and with quantities -/

namespace Verif

/-- The Fuller correlation on numbers. -/
noncomputable def fullerNum (T P Ma Mb A B : ℝ) : ℝ :=
  143 / 100000 * T ^ (7 / 4 : ℝ) /
    (P * (2 / (1 / Ma + 1 / Mb)) ^ (1 / 2 : ℝ) * (A ^ (1 / 3 : ℝ) + B ^ (1 / 3 : ℝ)) ^ 2)

/-- The Wilke-Chang correlation on numbers. -/
noncomputable def wilkeNum (T th M mu V : ℝ) : ℝ :=
  74 / 10 ^ 9 * (th * M) ^ (1 / 2 : ℝ) * T / (mu * V ^ (6 / 10 : ℝ))

/-- `DiffusionCoefficient(d, "cm^2/s")`. -/
def diffCmS (d : ℝ) : PyM (Val ℝ) := qM c!"DiffusionCoefficient" d c!"cm^2/s"

theorem C59_fullers_floats (T P Ma Mb A B : ℝ) (hT : 0 < T) (hP : 0 < P) (h1 : 0 < Ma) (h2 : 0 < Mb) (h3 : 0 < A)
    (h4 : 0 < B) :
    fullers (pnum T) (pnum P) (pnum Ma) (pnum Mb) (pnum A) (pnum B) = diffCmS (fullerNum T P Ma Mb A B) := by
  have e1 : 0 < 2 / (1 / Ma + 1 / Mb) := by positivity
  have e0 : 1 / Ma + 1 / Mb ≠ 0 := by positivity
  have e2 : P * (2 / (1 / Ma + 1 / Mb)) ^ ((1 / 2 : ℚ) : ℝ) * (A ^ ((1 / 3 : ℚ) : ℝ) + B ^ ((1 / 3 : ℚ) : ℝ)) ^ 2 ≠ 0 := by
    positivity
  units_eval [fullers, guardUnits, checkUnits, castDiffusion, hP.ne', h1.ne', h2.ne', e0, e2, pow_real_pos hT,
    pow_real_pos e1, pow_real_pos h3, pow_real_pos h4, pyDiv_ne e2, diffCmS]
  exact okMulti_congr (by unfold fullerNum; push_cast; rfl)

/-- Called with quantities in the documented units fullers returns the same coefficient. -/
theorem C59_fullers_quantities (T P Ma Mb A B : ℝ) (hT : 0 < T) (hP : 0 < P) (h1 : 0 < Ma) (h2 : 0 < Mb) (h3 : 0 < A)
    (h4 : 0 < B) :
    fullers (tempSI T) (qU .pressure P c!"atm") (qM c!"MolecularWeight" Ma c!"g/mol")
      (qM c!"MolecularWeight" Mb c!"g/mol") (qMulti A c!"cm^3/mol") (qMulti B c!"cm^3/mol") =
        fullers (pnum T) (pnum P) (pnum Ma) (pnum Mb) (pnum A) (pnum B) := by
  rw [C59_fullers_floats T P Ma Mb A B hT hP h1 h2 h3 h4]
  have e1 : 0 < 2 / (1 / Ma + 1 / Mb) := by positivity
  have e0 : 1 / Ma + 1 / Mb ≠ 0 := by positivity
  have e2 : P * (2 / (1 / Ma + 1 / Mb)) ^ ((1 / 2 : ℚ) : ℝ) * (A ^ ((1 / 3 : ℚ) : ℝ) + B ^ ((1 / 3 : ℚ) : ℝ)) ^ 2 *
      ((1 / 10000 : ℚ) : ℝ) ≠ 0 := by
    positivity
  units_eval [fullers, guardUnits, checkUnits, castDiffusion, tempSI, hP.ne', h1.ne', h2.ne', e0, pow_real_pos hT,
    pow_real_pos e1, pow_real_pos h3, pow_real_pos h4, pyDiv_ne e2, diffCmS]
  refine okMulti_congr ?_
  unfold fullerNum
  push_cast
  field_simp

/-- What `check_units` accepts: a quantity written in exactly the required unit, or something that is no quantity. -/
def WrittenIn (s : Sym) : Val ℝ → Prop
  | .unit u => u.unit = s
  | .multi m => parseUnits s = .ok (m.top, m.bot)
  | .bare => False
  | .num _ | .none | .other => True

theorem guardUnits_ok {u : PyM (Val ℝ)} {s : Sym} {rest : PyM (Val ℝ)} {v : Val ℝ} (h : guardUnits u s rest = .ok v) :
    (∃ w, u = .ok w ∧ WrittenIn s w) ∧ rest = .ok v := by
  unfold guardUnits at h
  cases u with
  | error e => cases h
  | ok w =>
    dsimp only at h
    cases hc : checkUnits w s with
    | error e => rw [hc] at h; cases h
    | ok _ =>
      rw [hc] at h
      refine ⟨⟨w, rfl, ?_⟩, h⟩
      cases w with
      | num _ => trivial
      | none => trivial
      | other => trivial
      | bare => cases hc
      | unit u =>
        simp only [checkUnits] at hc
        split_ifs at hc with hu
        exact hu
      | multi m =>
        simp only [checkUnits] at hc
        cases hp : parseUnits s with
        | error e => rw [hp] at hc; cases hc
        | ok tb =>
          obtain ⟨t, b⟩ := tb
          rw [hp] at hc
          dsimp only at hc
          split_ifs at hc with hm
          simp only [WrittenIn, hp, hm.1, hm.2]

/-- **C59**: Fuller's correlation gives no diffusivity unless each of its six arguments is a plain number or is written
in the unit the correlation was fitted in. -/
theorem C59_fullers_guards {T P Ma Mb EvA EvB : PyM (Val ℝ)} {v : Val ℝ} (h : fullers T P Ma Mb EvA EvB = .ok v) :
    (∃ w, T = .ok w ∧ WrittenIn c!"K" w) ∧ (∃ w, P = .ok w ∧ WrittenIn c!"atm" w) ∧
    (∃ w, Ma = .ok w ∧ WrittenIn c!"g/mol" w) ∧ (∃ w, Mb = .ok w ∧ WrittenIn c!"g/mol" w) ∧
    (∃ w, EvA = .ok w ∧ WrittenIn c!"cm^3/mol" w) ∧ (∃ w, EvB = .ok w ∧ WrittenIn c!"cm^3/mol" w) := by
  unfold fullers at h
  obtain ⟨h1, h⟩ := guardUnits_ok h
  obtain ⟨h2, h⟩ := guardUnits_ok h
  obtain ⟨h3, h⟩ := guardUnits_ok h
  obtain ⟨h4, h⟩ := guardUnits_ok h
  obtain ⟨h5, h⟩ := guardUnits_ok h
  obtain ⟨h6, h⟩ := guardUnits_ok h
  exact ⟨h1, h2, h3, h4, h5, h6⟩

/-- The guard is not vacuous: a pressure in kPa is refused. -/
example (Ma Mb EvA EvB : PyM (Val ℝ)) :
    ∀ v, fullers (qU .temperature 300 c!"K") (qU .pressure 101 c!"kPa") Ma Mb EvA EvB ≠ .ok v := by
  intro v h
  obtain ⟨-, ⟨w, hw, hu⟩, -⟩ := C59_fullers_guards h
  have : w = .unit ⟨.pressure, 101, c!"kPa", 1⟩ := by
    have e : (qU .pressure 101 c!"kPa" : PyM (Val ℝ)) = .ok (.unit ⟨.pressure, 101, c!"kPa", 1⟩) := rfl
    rw [e] at hw
    exact (Except.ok.inj hw).symm
  subst this
  exact absurd hu (by simp only [WrittenIn]; decide)

/-- Other units are refused: a temperature that is not in kelvin raises IncorrectUnits, whatever the other arguments. -/
theorem C59_fullers_guard (T : ℝ) (u : Sym) (hu : u ∈ temperatureUnits) (hK : u ≠ c!"K") (P Ma Mb A B : PyM (Val ℝ)) :
    fullers (qU .temperature T u) P Ma Mb A B = .error .incorrectUnits := by
  simp only [temperatureUnits, List.mem_cons, List.not_mem_nil, or_false] at hu
  rcases hu with rfl | rfl | rfl | rfl
  · exact absurd rfl hK
  all_goals units_eval [fullers, guardUnits, checkUnits]

example : fullers (pnum 300) (pnum 1) (pnum 18) (pnum 29) (pnum 13) (pnum 20) =
    diffCmS (fullerNum 300 1 18 29 13 20) := C59_fullers_floats _ _ _ _ _ _ (by norm_num) (by norm_num) (by norm_num)
      (by norm_num) (by norm_num) (by norm_num)

example : fullers (tempSI 300) (qU .pressure 1 c!"atm") (qM c!"MolecularWeight" 18 c!"g/mol")
      (qM c!"MolecularWeight" 29 c!"g/mol") (qMulti 13 c!"cm^3/mol") (qMulti 20 c!"cm^3/mol") =
    diffCmS (fullerNum 300 1 18 29 13 20) := by
  rw [C59_fullers_quantities _ _ _ _ _ _ (by norm_num) (by norm_num) (by norm_num) (by norm_num) (by norm_num)
    (by norm_num)]
  exact C59_fullers_floats _ _ _ _ _ _ (by norm_num) (by norm_num) (by norm_num) (by norm_num) (by norm_num)
    (by norm_num)

example : fullers (qU .temperature 80 c!"F") pNone pNone pNone pNone pNone = .error .incorrectUnits :=
  C59_fullers_guard _ _ (by decide) (by decide) _ _ _ _ _

theorem C59_wilke_floats (T th M mu V : ℝ) (h1 : 0 < th) (h2 : 0 < M) (h3 : 0 < mu) (h4 : 0 < V) :
    wilkeChang (pnum T) (pnum th) (pnum M) (pnum mu) (pnum V) = diffCmS (wilkeNum T th M mu V) := by
  have e1 : 0 < th * M := by positivity
  have e2 : mu * V ^ ((3 / 5 : ℚ) : ℝ) ≠ 0 := by positivity
  units_eval [wilkeChang, castDiffusion, pow_real_pos e1, pow_real_pos h4, pyDiv_ne e2, diffCmS]
  refine okMulti_congr ?_
  unfold wilkeNum
  push_cast
  norm_num

/-- With the viscosity in centipoise and the molecular volume a plain number, quantities and floats agree.
Full statement (refuted below): also for a viscosity in g/cm*s, the other documented unit. -/
theorem C59_wilke_partial (T th M mu V : ℝ) (h1 : 0 < th) (h2 : 0 < M) (h3 : 0 < mu) (h4 : 0 < V) :
    wilkeChang (qU .temperature T c!"F") (pnum th) (qM c!"MolecularWeight" M c!"g/mol")
      (qM c!"DynamicViscosity" mu c!"cP") (pnum V) =
        wilkeChang (pnum T) (pnum th) (pnum M) (pnum mu) (pnum V) := by
  rw [C59_wilke_floats T th M mu V h1 h2 h3 h4]
  have e1 : 0 < th * M := by positivity
  have e2 : mu * V ^ ((3 / 5 : ℚ) : ℝ) ≠ 0 := by positivity
  units_eval [wilkeChang, castDiffusion, pow_real_pos e1, pow_real_pos h4, pyDiv_ne e2, diffCmS]
  refine okMulti_congr ?_
  unfold wilkeNum
  push_cast
  norm_num
  ring

/-- With the viscosity in g/cm*s the centimetre's prefix factor leaks into the value: the coefficient is always a
hundredth of the one computed from the same numbers. -/
theorem C59_wilke_gcms (T th M mu V : ℝ) (h1 : 0 < th) (h2 : 0 < M) (h3 : 0 < mu) (h4 : 0 < V) :
    wilkeChang (qU .temperature T c!"F") (pnum th) (qM c!"MolecularWeight" M c!"g/mol")
      (qM c!"DynamicViscosity" mu c!"g/cm*s") (pnum V) = diffCmS (wilkeNum T th M mu V / 100) := by
  have e1 : 0 < th * M := by positivity
  have e2 : mu * V ^ ((3 / 5 : ℚ) : ℝ) ≠ 0 := by positivity
  units_eval [wilkeChang, castDiffusion, pow_real_pos e1, pow_real_pos h4, pyDiv_ne e2, diffCmS]
  refine okMulti_congr ?_
  unfold wilkeNum
  push_cast
  norm_num
  ring

theorem C59_wilke_false : ¬ ∀ T th M mu V : ℝ, 0 < T → 0 < th → 0 < M → 0 < mu → 0 < V →
    wilkeChang (qU .temperature T c!"F") (pnum th) (qM c!"MolecularWeight" M c!"g/mol")
      (qM c!"DynamicViscosity" mu c!"g/cm*s") (pnum V) =
        wilkeChang (pnum T) (pnum th) (pnum M) (pnum mu) (pnum V) := by
  intro h
  have h1 := h 100 1 18 1 65 (by norm_num) (by norm_num) (by norm_num) (by norm_num) (by norm_num)
  rw [C59_wilke_gcms _ _ _ _ _ (by norm_num) (by norm_num) (by norm_num) (by norm_num),
    C59_wilke_floats _ _ _ _ _ (by norm_num) (by norm_num) (by norm_num) (by norm_num)] at h1
  have hw : 0 < wilkeNum 100 1 18 1 65 := by unfold wilkeNum; positivity
  generalize wilkeNum 100 1 18 1 65 = w at h1 hw
  units_eval [diffCmS, Except.ok.injEq, Val.multi.injEq, MultiV.mk.injEq] at h1
  linarith

end Verif
