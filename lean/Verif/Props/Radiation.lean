import Verif.Tactic.UnitsEval
import Verif.HeatTransfer.Radiation
import Verif.Spec.SI

/-!
# C50: radiation
-/

namespace Verif

/-- The Stefan-Boltzmann law in SI units. -/
theorem C50_value (a f t1 t2 : ℝ) :
    radiativeHeatFlow (areaSI a) (pnum f) (tempSI t1) (tempSI t2)
      = qM c!"Power" (5670 / 10 ^ 11 * a * f * (t1 ^ 4 - t2 ^ 4)) c!"W" := by
  units_eval [radiativeHeatFlow, radiationConstant, areaSI, tempSI, valueAttr]
  exact okMulti_congr (by ring)

/-- C50 for arguments in m^2 and K: zero for equal temperatures, antisymmetric, positive from hot to cold. Missing: other
units (`C50_area_unit_false`, `C50_temperature_unit_false`). -/
theorem C50_SI_partial (a f t1 t2 : ℝ) :
    radiativeHeatFlow (areaSI a) (pnum f) (tempSI t1) (tempSI t1) = qM c!"Power" 0 c!"W" ∧
    ∃ q, radiativeHeatFlow (areaSI a) (pnum f) (tempSI t1) (tempSI t2) = qM c!"Power" q c!"W" ∧
      radiativeHeatFlow (areaSI a) (pnum f) (tempSI t2) (tempSI t1) = qM c!"Power" (-q) c!"W" ∧
      (0 < a → 0 < f → 0 ≤ t2 → t2 < t1 → 0 < q) := by
  refine ⟨by rw [C50_value]; simp, _, C50_value a f t1 t2, by rw [C50_value]; congr 1; ring, ?_⟩
  intro ha hf h2 h12
  have : t2 ^ 4 < t1 ^ 4 := pow_lt_pow_left₀ h12 h2 (by norm_num)
  have := sub_pos.2 this
  positivity

/-- An area in cm^2 is used as if it were in m^2. -/
theorem C50_cm2_ignored (a f t1 t2 : ℝ) :
    radiativeHeatFlow (qU .area a c!"cm^2") (pnum f) (tempSI t1) (tempSI t2)
      = radiativeHeatFlow (areaSI a) (pnum f) (tempSI t1) (tempSI t2) := by
  rw [C50_value]
  units_eval [radiativeHeatFlow, radiationConstant, areaSI, tempSI, valueAttr]
  exact okMulti_congr (by ring)

/-- Temperatures in degrees Celsius are used as if they were absolute. -/
theorem C50_celsius_ignored (a f t1 t2 : ℝ) :
    radiativeHeatFlow (areaSI a) (pnum f) (qU .temperature t1 c!"C") (qU .temperature t2 c!"C")
      = radiativeHeatFlow (areaSI a) (pnum f) (tempSI t1) (tempSI t2) := by
  rw [C50_value]
  units_eval [radiativeHeatFlow, radiationConstant, areaSI, tempSI, valueAttr]
  exact okMulti_congr (by ring)

/-- The formula reads `_value` off the product: when all units cancel, as with a view factor given per watt, the product is a
plain number, which has no such attribute. -/
theorem C50_cancelled (a f t1 t2 : ℝ) :
    radiativeHeatFlow (areaSI a) (qM c!"MultiUnit" f c!"s/J") (tempSI t1) (tempSI t2) = .error .attributeError := by
  units_eval [radiativeHeatFlow, radiationConstant, areaSI, tempSI, valueAttr]

theorem power_inj {v w : ℝ} (h : qM c!"Power" v c!"W" = qM c!"Power" w c!"W") : v = w := by
  units_eval [Except.ok.injEq, Val.multi.injEq, MultiV.mk.injEq] at h
  exact h

/-! ### Whatever the units -/

/-- The number in front of the units. -/
def Val.number : Val ℝ → Option ℝ
  | .num x => some x
  | .unit u => some u.value
  | .multi m => some m.value
  | _ => Option.none

theorem mkUnit_number {c : UCls} {v : ℝ} {s : Sym} {e : ℚ} {u : UnitV ℝ} (h : mkUnit c v s e = .ok u) : u.value = v := by
  unfold mkUnit at h
  split at h <;> (repeat' split at h) <;> cases h <;> rfl

theorem wrapUnit_number {c : UCls} {v : ℝ} {s : Sym} {e : ℚ} {r : Val ℝ} (h : wrapUnit (mkUnit c v s e) = .ok r) :
    r.number = some v := by
  unfold wrapUnit at h
  split at h
  · cases h
  · rename_i u hu
    cases h
    rw [Val.number, mkUnit_number hu]

/-- Multiplying by a simple quantity multiplies the numbers, whatever the units. -/
theorem mul_unit_number {x : Val ℝ} {u : UnitV ℝ} {v : ℝ} (hx : x.number = some v) {r : Val ℝ}
    (h : Val.mul x (.unit u) = .ok r) : r.number = some (v * u.value) := by
  cases x with
  | num y =>
    cases hx
    rw [mul_comm]
    exact wrapUnit_number h
  | unit w =>
    cases hx
    simp only [Val.mul, unitMul] at h
    split at h
    · exact wrapUnit_number h
    · cases h; rfl
  | multi m =>
    cases hx
    simp only [Val.mul, multiMul, multiMulUnit] at h
    split at h
    · cases h
    · cases h
      rw [mul_comm]
      unfold packMul
      split <;> rfl
  | none => cases hx
  | other => cases hx
  | bare => cases hx

theorem mul_num_number {x : Val ℝ} {y v : ℝ} (hx : x.number = some v) {r : Val ℝ}
    (h : Val.mul x (.num y) = .ok r) : r.number = some (v * y) := by
  cases x with
  | num y => cases hx; cases h; rfl
  | unit w => cases hx; exact wrapUnit_number h
  | multi m => cases hx; cases h; rfl
  | none => cases hx
  | other => cases hx
  | bare => cases hx

theorem valueAttr_number {r : Val ℝ} {v w : ℝ} (hr : r.number = some v) (h : valueAttr (.ok r) = .ok w) : w = v := by
  cases r <;> simp_all [valueAttr, Val.number]

/-- **C50**: whatever the unit of the area and the unit of the temperatures, and whatever their exponents, a result is
always the Stefan-Boltzmann law applied to the bare numbers, and called watts. -/
theorem C50_numbers_only (a t1 t2 : UnitV ℝ) (f : ℝ) (r : Val ℝ)
    (h : radiativeHeatFlow (.ok (.unit a)) (pnum f) (.ok (.unit t1)) (.ok (.unit t2)) = .ok r) :
    qM c!"Power" (5670 / 10 ^ 11 * a.value * f * (t1.value ^ 4 - t2.value ^ 4)) c!"W" = .ok r := by
  have pow4 : ∀ {t : UnitV ℝ} {r : Val ℝ}, ppow (.ok (.unit t)) 4 = .ok r → ∃ u : UnitV ℝ, r = .unit u ∧ u.value = t.value ^ 4 := by
    intro t r hr
    change unitPow t 4 = .ok r at hr
    unfold unitPow at hr
    rw [pow_real_four] at hr
    simp only [wrapUnit] at hr
    split at hr
    · cases hr
    · rename_i u hu
      cases hr
      exact ⟨u, rfl, mkUnit_number hu⟩
  have two : ∀ {g : Val ℝ → Val ℝ → PyM (Val ℝ)} {x y : PyM (Val ℝ)} {r : Val ℝ}, lift2 g x y = .ok r →
      ∃ x' y', x = .ok x' ∧ y = .ok y' ∧ g x' y' = .ok r := by
    intro g x y r hr
    cases x with
    | error e => cases hr
    | ok x' => cases y with
      | error e => cases hr
      | ok y' => exact ⟨x', y', rfl, rfl, hr⟩
  unfold radiativeHeatFlow at h
  split at h
  · cases h
  rename_i w hw
  have hok : ∃ p, radiationConstant * (.ok (.unit a)) * pnum f * (ppow (.ok (.unit t1)) 4 - ppow (.ok (.unit t2)) 4) =
      .ok p := by
    cases hp : radiationConstant * (.ok (.unit a)) * pnum f * (ppow (.ok (.unit t1)) 4 - ppow (.ok (.unit t2)) 4) with
    | error e => rw [hp] at hw; cases hw
    | ok p => exact ⟨p, rfl⟩
  obtain ⟨p, hp⟩ := hok
  rw [hp] at hw
  obtain ⟨q, d, hq, hd, hqd⟩ := two hp
  obtain ⟨s, y, hs, hy, hsy⟩ := two hq
  obtain ⟨c, y', hc, hy', hcy⟩ := two hs
  obtain ⟨x1, x2, h1, h2, h12⟩ := two hd
  obtain ⟨u1, rfl, e1⟩ := pow4 h1
  obtain ⟨u2, rfl, e2⟩ := pow4 h2
  cases hy
  cases hy'
  have nc : c.number = some (5670 / 10 ^ 11) := by
    have : (radiationConstant : PyM (Val ℝ)) = .ok c := hc
    units_eval [radiationConstant] at this
    cases this
    rfl
  have ns := mul_num_number (mul_unit_number nc hcy) hsy
  have hd' : ∃ u : UnitV ℝ, d = .unit u ∧ u.value = u1.value - u2.value := by
    change unitSub u1 (.unit u2) = .ok d at h12
    simp only [unitSub] at h12
    split at h12
    · split at h12
      · unfold wrapUnit at h12
        split at h12
        · cases h12
        · rename_i u hu
          cases h12
          exact ⟨u, rfl, mkUnit_number hu⟩
      · cases h12
    · cases h12
  obtain ⟨u, rfl, e⟩ := hd'
  have := valueAttr_number (mul_unit_number ns hqd) hw
  rw [e, e1, e2] at this
  rw [← this]
  exact h

/-- **C50**, exactly: if one unit of the area is `A` square metres and one unit of the temperature `τ` kelvins (zero being
absolute zero), a result is the radiated power if and only if `A τ⁴ = 1`, as in m^2 and K. -/
theorem C50_right_iff (a t1 t2 : UnitV ℝ) (f : ℝ) (r : Val ℝ)
    (h : radiativeHeatFlow (.ok (.unit a)) (pnum f) (.ok (.unit t1)) (.ok (.unit t2)) = .ok r)
    (ha : a.value ≠ 0) (hf : f ≠ 0) (ht : t1.value ^ 4 ≠ t2.value ^ 4) (A τ : ℝ) :
    qM c!"Power" (5670 / 10 ^ 11 * (A * a.value) * f * ((τ * t1.value) ^ 4 - (τ * t2.value) ^ 4)) c!"W" = .ok r ↔
      A * τ ^ 4 = 1 := by
  rw [← C50_numbers_only a t1 t2 f r h]
  have hd := sub_ne_zero.2 ht
  have key : 5670 / 10 ^ 11 * (A * a.value) * f * ((τ * t1.value) ^ 4 - (τ * t2.value) ^ 4) =
      A * τ ^ 4 * (5670 / 10 ^ 11 * a.value * f * (t1.value ^ 4 - t2.value ^ 4)) := by ring
  rw [key]
  constructor
  · intro e
    have hne : 5670 / 10 ^ 11 * a.value * f * (t1.value ^ 4 - t2.value ^ 4) ≠ 0 :=
      mul_ne_zero (mul_ne_zero (mul_ne_zero (by norm_num) ha) hf) hd
    exact mul_right_cancel₀ hne ((power_inj e).trans (one_mul _).symm)
  · intro e
    rw [e, one_mul]

/-- An example: temperatures in degrees Rankine, `τ = 5/9`, never give the right power for an area in m^2. -/
example (a f t1 t2 : ℝ) (r : Val ℝ) (ha : a ≠ 0) (hf : f ≠ 0) (ht : t1 ^ 4 ≠ t2 ^ 4)
    (h : radiativeHeatFlow (.ok (.unit ⟨.area, a, c!"m", 2⟩)) (pnum f) (.ok (.unit ⟨.temperature, t1, c!"R", 1⟩))
      (.ok (.unit ⟨.temperature, t2, c!"R", 1⟩)) = .ok r) :
    qM c!"Power" (5670 / 10 ^ 11 * (1 * a) * f * ((5 / 9 * t1) ^ 4 - (5 / 9 * t2) ^ 4)) c!"W" ≠ .ok r := by
  intro e
  have := (C50_right_iff _ _ _ f r h ha hf ht 1 (5 / 9)).1 e
  norm_num at this

/-- The same area in cm^2 gives another power. -/
theorem C50_area_unit_false :
    ¬ ∀ a f t1 t2 : ℝ, 0 < a → 0 < f → 0 < t2 → t2 < t1 →
      radiativeHeatFlow (qU .area (10000 * a) c!"cm^2") (pnum f) (tempSI t1) (tempSI t2)
        = radiativeHeatFlow (areaSI a) (pnum f) (tempSI t1) (tempSI t2) := by
  intro h
  have h1 := h 1 1 2 1 one_pos one_pos one_pos one_lt_two
  rw [C50_cm2_ignored, C50_value, C50_value] at h1
  have := power_inj h1
  norm_num at this

/-- The same temperatures in degrees Celsius give another power. -/
theorem C50_temperature_unit_false :
    ¬ ∀ a f t1 t2 : ℝ, 0 < a → 0 < f → 0 < t2 → t2 < t1 →
      radiativeHeatFlow (areaSI a) (pnum f) (qU .temperature (t1 - 27315 / 100) c!"C")
          (qU .temperature (t2 - 27315 / 100) c!"C")
        = radiativeHeatFlow (areaSI a) (pnum f) (tempSI t1) (tempSI t2) := by
  intro h
  have h1 := h 1 1 (27315 / 100 + 1) (27315 / 100) one_pos one_pos (by norm_num) (by norm_num)
  rw [C50_celsius_ignored, C50_value, C50_value] at h1
  have := power_inj h1
  norm_num at this

/-- Non-vacuity: a black square metre at 1000 K facing 0 K emits 56700 W. -/
example : radiativeHeatFlow (areaSI 1) (pnum 1) (tempSI 1000) (tempSI 0) = qM c!"Power" 56700 c!"W" := by
  rw [C50_value]; norm_num

end Verif
