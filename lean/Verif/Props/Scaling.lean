import Verif.Lemmas.Construct

/-! # C06, C07: scaling by numbers, powers -/

namespace Verif

/-! ## C06 -/

/-- Multiplying a compound quantity by a number, on either side. -/
theorem C06_scale_multi (m : MultiV ℝ) (x : ℝ) :
    Val.mul (.multi m) (.num x) = .ok (.multi ⟨.multi, m.value * x, m.top, m.bot⟩) ∧
    Val.mul (.num x) (.multi m) = .ok (.multi ⟨.multi, x * m.value, m.top, m.bot⟩) := ⟨rfl, rfl⟩

/-- Dividing a compound quantity by a number: zero raises, anything else divides the value. -/
theorem C06_div_multi (m : MultiV ℝ) (x : ℝ) :
    Val.div (.multi m) (.num x) = if x = 0 then .error .zeroDivision
      else .ok (.multi ⟨.multi, m.value / x, m.top, m.bot⟩) := by
  by_cases h : x = 0 <;> simp [Val.div, multiDiv, pyDiv, h]

/-- Dividing a simple quantity by a number keeps unit and exponent. -/
theorem C06_div_unit (u : UnitV ℝ) (hu : u.Constructed) (x : ℝ) :
    Val.div (.unit u) (.num x) = if x = 0 then .error .zeroDivision
      else .ok (.unit ⟨u.cls, u.value / x, u.unit, u.exp⟩) := by
  by_cases h : x = 0 <;> simp [Val.div, unitDiv, pyDiv, h, hu.rebuild, wrapUnit]

example : (⟨.volume, 2, c!"m", 3⟩ : UnitV ℝ).Constructed :=
  ⟨2, c!"m^3", 1, by
    have : splitOn '^' c!"m^3" = [c!"m", c!"3"] := by decide +kernel
    have h3 : pyFloat c!"3" = .ok 3 := by decide +kernel
    simp [mkUnit, this, h3]⟩

/-- Multiplying a simple quantity with exponent 1 by a number, on either side, keeps the unit.  Missing for the full
claim: other exponents. -/
theorem C06_scale_unit_partial (u : UnitV ℝ) (hu : u.Constructed) (he : u.exp = 1) (x : ℝ) :
    Val.mul (.unit u) (.num x) = .ok (.unit ⟨u.cls, u.value * x, u.unit, u.exp⟩) ∧
    Val.mul (.num x) (.unit u) = .ok (.unit ⟨u.cls, u.value * x, u.unit, u.exp⟩) := by
  simp [Val.mul, unitMul, unitRmul, hu.rebuild, wrapUnit, he]

example : (⟨.length, 2, c!"ft", 1⟩ : UnitV ℝ).Constructed ∧ (1 : ℚ) = 1 := ⟨⟨2, c!"ft", 1, rfl⟩, rfl⟩

/-- What actually happens for every exponent: the result has exponent 1. -/
theorem C06_scale_unit_drops_exponent (u : UnitV ℝ) (hu : u.Constructed) (x : ℝ) :
    Val.mul (.unit u) (.num x) = .ok (.unit ⟨u.cls, u.value * x, u.unit, 1⟩) ∧
    Val.mul (.num x) (.unit u) = .ok (.unit ⟨u.cls, u.value * x, u.unit, 1⟩) := by
  simp [Val.mul, unitMul, unitRmul, hu.rebuild, wrapUnit]

/-- The full claim is false: 2·(1 m²) is 2 m. -/
theorem C06_scale_unit_false : ¬ ∀ (u : UnitV ℝ), u.Constructed → ∀ x : ℝ,
    Val.mul (.unit u) (.num x) = .ok (.unit ⟨u.cls, u.value * x, u.unit, u.exp⟩) := by
  intro h
  have hc : (⟨.length, 1, c!"m", 2⟩ : UnitV ℝ).Constructed := ⟨1, c!"m", 2, rfl⟩
  have h1 := h _ hc 2
  rw [(C06_scale_unit_drops_exponent _ hc 2).1] at h1
  simp at h1

/-! ## C07 -/

theorem pow_cases (x : ℝ) (e : ℚ) : (PyPow.pow x e : PyM ℝ) =
    if x = 0 ∧ e < 0 then .error .zeroDivision
    else if x < 0 ∧ e.den ≠ 1 then .error .complexResult
    else .ok (x ^ (e : ℝ)) := rfl

/-- Powers of a nonnegative compound quantity: raises exactly for a negative power of zero, otherwise the
magnitude is the power of the magnitude. -/
theorem C07_pow_multi (m : MultiV ℝ) (hv : 0 ≤ m.value) (e : ℚ) :
    (m.value = 0 ∧ e < 0 ∧ Val.pow (.multi m) e = .error .zeroDivision) ∨
    ∃ r : MultiV ℝ, Val.pow (.multi m) e = .ok (.multi r) ∧
      ∀ ρ, Coherent ρ → r.mag ρ = m.mag ρ ^ (e : ℝ) := by
  obtain ⟨t, b, er, -, hn⟩ := reducePow_spec (m.top.map (·.pow e)) (m.bot.map (·.pow e))
  by_cases h0 : m.value = 0 ∧ e < 0
  · left; refine ⟨h0.1, h0.2, ?_⟩
    simp [Val.pow, multiPow, er, pow_cases, h0]
  · right
    refine ⟨⟨.multi, m.value ^ (e : ℝ), t, b⟩, ?_, fun ρ hρ => ?_⟩
    · simp only [Val.pow, multiPow, er, pow_cases, h0, not_lt.2 hv, false_and, if_false]
    · simp only [MultiV.mag]
      rw [mag_eq hρ.pos, mag_eq hρ.pos, hn (lw ρ) hρ.laws, Real.mul_rpow hv (Real.exp_pos _).le,
        ← Real.exp_mul]
      congr 2
      simp only [net, wsum_map_pow, Rat.smul_def]; ring

example : (0 : ℝ) ≤ (⟨.multi, 4, [⟨c!"kPa", 1⟩], [⟨c!"mol", 3⟩]⟩ : MultiV ℝ).value := by norm_num

/-- Integer powers of compound quantities of any sign. -/
theorem C07_pow_multi_int (m : MultiV ℝ) (n : ℤ) (h0 : m.value ≠ 0 ∨ 0 ≤ n) :
    ∃ r : MultiV ℝ, Val.pow (.multi m) (n : ℚ) = .ok (.multi r) ∧
      ∀ ρ, Coherent ρ → r.mag ρ = m.mag ρ ^ n := by
  obtain ⟨t, b, er, -, hn⟩ := reducePow_spec (m.top.map (·.pow (n : ℚ))) (m.bot.map (·.pow (n : ℚ)))
  have h1 : ¬ (m.value = 0 ∧ (n : ℚ) < 0) := by
    rintro ⟨h1, h2⟩
    have h2 : n < 0 := by exact_mod_cast h2
    rcases h0 with h | h
    · exact h h1
    · omega
  have h2 : ¬ ((n : ℚ).den ≠ 1) := by simp
  refine ⟨⟨.multi, m.value ^ (((n : ℚ)) : ℝ), t, b⟩, ?_, fun ρ hρ => ?_⟩
  · simp only [Val.pow, multiPow, er, pow_cases, h1, h2, and_false, if_false]
  · simp only [MultiV.mag]
    rw [mag_eq hρ.pos, mag_eq hρ.pos, hn (lw ρ) hρ.laws, mul_zpow]
    push_cast
    rw [Real.rpow_intCast]
    congr 1
    rw [← Real.rpow_intCast (Real.exp _) n, ← Real.exp_mul]
    congr 1
    simp only [net, wsum_map_pow, Rat.smul_def]; push_cast; ring

example : (⟨.multi, -4, [⟨c!"m", 1⟩], [⟨c!"s", 3⟩]⟩ : MultiV ℝ).value ≠ 0 ∨ 0 ≤ (-3 : ℤ) :=
  .inl (by norm_num)

/-- Powers of simple quantities. -/
theorem C07_pow_unit (u : UnitV ℝ) (hu : u.Constructed) (hv : 0 ≤ u.value) (e : ℚ) :
    (u.value = 0 ∧ e < 0 ∧ Val.pow (.unit u) e = .error .zeroDivision) ∨
    ∃ r : UnitV ℝ, Val.pow (.unit u) e = .ok (.unit r) ∧ r.cls = u.cls ∧ r.unit = u.unit ∧
      r.exp = u.exp * e ∧
      ∀ ρ : Sym → ℝ, (∀ s, 0 < ρ s) → r.mag ρ = u.mag ρ ^ (e : ℝ) := by
  by_cases h0 : u.value = 0 ∧ e < 0
  · left; refine ⟨h0.1, h0.2, ?_⟩
    simp [Val.pow, unitPow, pow_cases, h0]
  · right
    refine ⟨⟨u.cls, u.value ^ (e : ℝ), u.unit, u.exp * e⟩, ?_, rfl, rfl, rfl, fun ρ hρ => ?_⟩
    · simp only [Val.pow, unitPow, pow_cases, h0, not_lt.2 hv, false_and, if_false, hu.rebuild, wrapUnit]
    · simp only [UnitV.mag]
      rw [Real.mul_rpow hv (Real.rpow_pos_of_pos (hρ _) _).le, ← Real.rpow_mul (hρ _).le]
      push_cast; rfl

example : (⟨.area, 9, c!"m", 2⟩ : UnitV ℝ).Constructed ∧ (0 : ℝ) ≤ 9 :=
  ⟨⟨9, c!"m", 2, by simp [mkUnit]⟩, by norm_num⟩

end Verif
