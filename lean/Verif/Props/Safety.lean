import Verif.Tactic.UnitsEval
import Verif.Safety.Basic
import Verif.Spec.SI

/-!
# C51, C52, C53: process safety
-/

namespace Verif

/-! ## C51 -/

/-- The pressure units without an SI prefix. -/
def PlainPressure (u : Sym) : Prop := u = c!"Pa" ∨ u = c!"atm" ∨ u = c!"bar" ∨ u = c!"psi"

/-- The cylinder formula. Missing: strengths in prefixed units, whose result is in another unit (`C51_unit_false`). -/
theorem C51_cylinder_partial (u : Sym) (hu : PlainPressure u) (s t r : ℝ) (h : r + 6 / 10 * t ≠ 0) :
    maxVesselPressure (qU .pressure s u) (lenSI t) (lenSI r) c!"cylinder"
      = qU .unit (s * t / (r + 6 / 10 * t)) u := by
  rw [mul_comm _ t] at h
  rcases hu with rfl | rfl | rfl | rfl
  all_goals
    units_eval [maxVesselPressure, lenSI, h]
    exact okUnit_congr (by ring)

/-- The sphere formula. Missing: strengths in prefixed units. -/
theorem C51_sphere_partial (u : Sym) (hu : PlainPressure u) (s t r : ℝ) (h : r + 2 / 10 * t ≠ 0) :
    maxVesselPressure (qU .pressure s u) (lenSI t) (lenSI r) c!"sphere"
      = qU .unit (2 * s * t / (r + 2 / 10 * t)) u := by
  rw [mul_comm _ t] at h
  rcases hu with rfl | rfl | rfl | rfl
  all_goals
    units_eval [maxVesselPressure, lenSI, h]
    exact okUnit_congr (by ring)

/-- Any other shape raises TypeError, whatever the arguments. -/
theorem C51_other_shapes (strength thickness radius : PyM (Val ℝ)) (shape : Sym) (h1 : shape ≠ c!"cylinder")
    (h2 : shape ≠ c!"sphere") : maxVesselPressure strength thickness radius shape = .error .typeError := by
  simp only [maxVesselPressure, if_neg h1, if_neg h2]

/-- Both formulas increase strictly with the wall thickness. -/
theorem C51_increasing (u : Sym) (hu : PlainPressure u) (s t t' r : ℝ) (shape : Sym)
    (hshape : shape = c!"cylinder" ∨ shape = c!"sphere") (hs : 0 < s) (ht : 0 ≤ t) (htt : t < t') (hr : 0 < r) :
    ∃ p p', maxVesselPressure (qU .pressure s u) (lenSI t) (lenSI r) shape = qU .unit p u ∧
      maxVesselPressure (qU .pressure s u) (lenSI t') (lenSI r) shape = qU .unit p' u ∧ p < p' := by
  have ht' : 0 < t' := ht.trans_lt htt
  have key : ∀ a c : ℝ, 0 < a → 0 < c → a * s * t / (r + c * t) < a * s * t' / (r + c * t') := by
    intro a c ha hc
    rw [div_lt_div_iff₀ (by positivity) (by positivity)]
    have : a * s * r * t < a * s * r * t' := mul_lt_mul_of_pos_left htt (by positivity)
    nlinarith
  rcases hshape with rfl | rfl
  · refine ⟨_, _, C51_cylinder_partial u hu s t r (by positivity), C51_cylinder_partial u hu s t' r (by positivity), ?_⟩
    have := key 1 (6 / 10) one_pos (by norm_num)
    simpa using this
  · exact ⟨_, _, C51_sphere_partial u hu s t r (by positivity), C51_sphere_partial u hu s t' r (by positivity),
      key 2 (2 / 10) two_pos (by norm_num)⟩

/-- A strength in kPa gives a result in Pa, 1000 times the number: same pressure, other unit. -/
theorem C51_kPa (s t r : ℝ) (h : r + 6 / 10 * t ≠ 0) :
    maxVesselPressure (qU .pressure s c!"kPa") (lenSI t) (lenSI r) c!"cylinder"
      = qU .unit (1000 * (s * t / (r + 6 / 10 * t))) c!"Pa" := by
  rw [mul_comm _ t] at h
  units_eval [maxVesselPressure, lenSI, h]
  exact okUnit_congr (by push_cast; ring)

/-- The result is not in the unit of the strength when that unit has a prefix. -/
theorem C51_unit_false :
    ¬ ∀ (u : Sym) (s t r : ℝ), u ∈ pressureUnits → 0 < s → 0 < t → 0 < r →
      maxVesselPressure (qU .pressure s u) (lenSI t) (lenSI r) c!"cylinder"
        = qU .unit (s * t / (r + 6 / 10 * t)) u := by
  intro h
  have h1 := h c!"kPa" 1 1 1 (by decide +kernel) one_pos one_pos one_pos
  rw [C51_kPa 1 1 1 (by norm_num)] at h1
  units_eval [Except.ok.injEq, Val.unit.injEq, UnitV.mk.injEq] at h1

/-- Non-vacuity: strength 100 Pa, wall 1 m, radius 0.4 m: 100 Pa. -/
example : maxVesselPressure (qU .pressure 100 c!"Pa") (lenSI 1) (lenSI (4 / 10)) c!"cylinder" = qU .unit 100 c!"Pa" := by
  rw [C51_cylinder_partial c!"Pa" (Or.inl rfl) _ _ _ (by norm_num)]; norm_num

/-! ## C52 -/

theorem num_inj {x y : ℝ} (h : (pnum x : PyM (Val ℝ)) = pnum y) : x = y := by
  simpa [pnum] using h

/-- What FAR computes: ten times the documented rate (`10E8` is 10⁹). -/
theorem C52_far_value (n h : ℝ) (hh : h ≠ 0) : far (pnum n) (pnum h) = pnum (n * 10 ^ 9 / h) := by
  units_eval [far, hh]
  exact okNum_congr (by ring)

theorem C52_far_false : ¬ ∀ n h : ℝ, 0 < n → 0 < h → far (pnum n) (pnum h) = pnum (n * 10 ^ 8 / h) := by
  intro H
  have h1 := H 1 1 one_pos one_pos
  rw [C52_far_value 1 1 one_ne_zero] at h1
  have := num_inj h1
  norm_num at this

/-- The OSHA rate. Missing from C52: FAR and the enclosure concentration, both off by a factor of ten
(`C52_far_false`, `C52_enclosure_false`). -/
theorem C52_osha_partial (n h : ℝ) (hh : h ≠ 0) : oshaRate (pnum n) (pnum h) = pnum (n * 200000 / h) := by
  units_eval [oshaRate, hh]

/-- Zero hours raise ZeroDivisionError. -/
theorem C52_zero_hours (n : ℝ) : oshaRate (pnum n) (pnum 0) = .error .zeroDivision ∧
    far (pnum n) (pnum 0) = .error .zeroDivision := by
  simp [oshaRate, far, pnum, ok_mul, ok_div, Val.mul, Val.div, pyDiv]

/-- `MassFlowRate(q, "kg/s")`. -/
def massFlowSI (q : ℝ) : PyM (Val ℝ) := qM c!"MassFlowRate" q c!"kg/s"
/-- `VolumetricFlowrate(q, "m^3/s")`. -/
def volFlowSI (q : ℝ) : PyM (Val ℝ) := qM c!"VolumetricFlowrate" q c!"m^3/s"
/-- `MolecularWeight(m, "kg/mol")`. -/
def molWtSI (m : ℝ) : PyM (Val ℝ) := qM c!"MolecularWeight" m c!"kg/mol"
/-- A gas constant in `m^3*Pa/mol*K`. -/
def gasSI (r : ℝ) : PyM (Val ℝ) := qMulti r c!"m^3*Pa/mol*K"

/-- What enclosure_concentration computes: a plain number, ten times the documented one (`10E6` is 10⁷). -/
theorem C52_enclosure_value (qm rg t k qv p m : ℝ) (h1 : k ≠ 0) (h2 : qv ≠ 0) (h3 : p ≠ 0) (h4 : m ≠ 0) :
    enclosureConcentration (massFlowSI qm) (gasSI rg) (tempSI t) (pnum k) (volFlowSI qv) (presSI p) (molWtSI m)
      = pnum (qm * rg * t / (k * qv * p * m) * 10 ^ 7) := by
  units_eval [enclosureConcentration, massFlowSI, gasSI, volFlowSI, molWtSI, tempSI, presSI, h1, h2, h3, h4]
  exact okNum_congr (by ring)

theorem C52_enclosure_false :
    ¬ ∀ qm rg t k qv p m : ℝ, 0 < qm → 0 < rg → 0 < t → 0 < k → 0 < qv → 0 < p → 0 < m →
      enclosureConcentration (massFlowSI qm) (gasSI rg) (tempSI t) (pnum k) (volFlowSI qv) (presSI p) (molWtSI m)
        = pnum (qm * rg * t / (k * qv * p * m) * 10 ^ 6) := by
  intro H
  have h1 := H 1 1 1 1 1 1 1 one_pos one_pos one_pos one_pos one_pos one_pos one_pos
  rw [C52_enclosure_value 1 1 1 1 1 1 1 one_ne_zero one_ne_zero one_ne_zero one_ne_zero] at h1
  have := num_inj h1
  norm_num at this

/-- Non-vacuity: 2 incidents in 400000 hours. -/
example : oshaRate (pnum 2) (pnum 400000) = (pnum 1 : PyM (Val ℝ)) := by
  rw [C52_osha_partial 2 400000 (by norm_num)]; norm_num

/-! ## C53 -/

/-- Converting the returned ppm back gives the mass concentration `Qm/(k*Qv)`. -/
theorem C53_round_trip (qm rg t k qv p m : ℝ) (h1 : k ≠ 0) (h2 : qv ≠ 0) (h3 : p ≠ 0) (h4 : m ≠ 0) (h5 : rg ≠ 0)
    (h6 : t ≠ 0) :
    ppmToOther
        (enclosureConcentration (massFlowSI qm) (gasSI rg) (tempSI t) (pnum k) (volFlowSI qv) (presSI p) (molWtSI m))
        (gasSI rg) (tempSI t) (presSI p) (molWtSI m)
      = qMulti (qm / (k * qv)) c!"kg/m^3" := by
  rw [C52_enclosure_value qm rg t k qv p m h1 h2 h3 h4]
  units_eval [ppmToOther, gasSI, tempSI, presSI, molWtSI, h1, h2, h3, h4, h5, h6]
  exact okMulti_congr (by field_simp)

/-- The same in g/s and g/mol, the units of the documentation: the result is in g/m^3. -/
theorem C53_round_trip_grams (qm rg t k qv p m : ℝ) (h1 : k ≠ 0) (h2 : qv ≠ 0) (h3 : p ≠ 0) (h4 : m ≠ 0) (h5 : rg ≠ 0)
    (h6 : t ≠ 0) :
    ppmToOther
        (enclosureConcentration (qM c!"MassFlowRate" qm c!"g/s") (gasSI rg) (tempSI t) (pnum k) (volFlowSI qv)
          (presSI p) (qM c!"MolecularWeight" m c!"g/mol"))
        (gasSI rg) (tempSI t) (presSI p) (qM c!"MolecularWeight" m c!"g/mol")
      = qMulti (qm / (k * qv)) c!"g/m^3" := by
  units_eval [ppmToOther, enclosureConcentration, gasSI, tempSI, presSI, volFlowSI, h1, h2, h3, h4, h5, h6]
  exact okMulti_congr (by field_simp)

/-- Non-vacuity: 0.7 g/s into 5 m^3/s with mixing factor 0.35 is 0.4 g/m^3, the documentation's example. -/
example : ppmToOther
    (enclosureConcentration (qM c!"MassFlowRate" (7 / 10) c!"g/s") (gasSI (8314 / 1000)) (tempSI 300) (pnum (35 / 100))
      (volFlowSI 5) (presSI 101325) (qM c!"MolecularWeight" 65 c!"g/mol"))
    (gasSI (8314 / 1000)) (tempSI 300) (presSI 101325) (qM c!"MolecularWeight" 65 c!"g/mol")
    = qMulti (4 / 10) c!"g/m^3" := by
  rw [C53_round_trip_grams _ _ _ _ _ _ _ (by norm_num) (by norm_num) (by norm_num) (by norm_num) (by norm_num)
    (by norm_num)]
  norm_num

end Verif
