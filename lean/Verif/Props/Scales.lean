import Verif.Props.SimpleConv
import Verif.Props.Convertible
import Verif.Props.Conduction
import Verif.Spec.Scales
import Verif.Lemmas.ConvertCast
import Verif.HeatTransfer.Transient
import Verif.HeatTransfer.Exchangers

/-!
# C93: temperatures on the four scales
-/

namespace Verif

theorem kelvin_reading (s : Scale) (T : ℝ) : s.kelvin (s.reading T) = T := by
  cases s <;> simp only [Scale.kelvin, Scale.reading] <;> ring

theorem reading_kelvin (s : Scale) (x : ℝ) : s.reading (s.kelvin x) = x := by
  cases s <;> simp only [Scale.kelvin, Scale.reading] <;> ring

theorem reading_sub (s : Scale) (T T' : ℝ) : s.reading T - s.reading T' = s.step * (T - T') := by
  cases s <;> simp only [Scale.step, Scale.reading] <;> ring

theorem step_pos (s : Scale) : 0 < s.step := by cases s <;> norm_num [Scale.step]

theorem tempOn_eq (s : Scale) (x : ℝ) : tempOn s x = .ok (.unit ⟨.temperature, x, s.sym, 1⟩) := by
  cases s <;> rfl

/-- The constructor for a reading of class Temperature. -/
theorem mkTemp (s : Scale) (x : ℝ) : mkUnit .temperature x s.sym 1 = .ok ⟨.temperature, x, s.sym, 1⟩ := by
  cases s <;> rfl

/-- `convert_to` between two scales goes through the thermodynamic temperature. -/
theorem C93_convert (s t : Scale) (x : ℝ) : inScale t (tempOn s x) = tempOn t (t.reading (s.kelvin x)) := by
  obtain ⟨y, h, hy⟩ := C22_temperature_exact s t x
  rw [tempOn_eq, tempOn_eq, ← hy, reading_kelvin]
  simp only [inScale, inUnit, lift1, callConvert, h, wrapUnit]

theorem inScale_error (t : Scale) (e : Err) : inScale t (.error e) = .error e := rfl

/-! ## Temperatures that follow from two temperatures -/

theorem NumOrError.exp (e : PyM (Val ℝ)) : NumOrError (pyExp e) := by
  rcases e with e | (x | _ | _ | _ | _ | _) <;> first | exact .inl ⟨_, rfl⟩ | exact .inr ⟨_, rfl⟩

theorem NumOrError.sin (e : PyM (Val ℝ)) : NumOrError (pySin e) := by
  rcases e with e | (x | _ | _ | _ | _ | _) <;> first | exact .inl ⟨_, rfl⟩ | exact .inr ⟨_, rfl⟩

theorem NumOrError.erf (e : PyM (Val ℝ)) : NumOrError (pyErf e) := by
  rcases e with e | (x | _ | _ | _ | _ | _) <;> first | exact .inl ⟨_, rfl⟩ | exact .inr ⟨_, rfl⟩

theorem NumOrError.num (x : ℝ) : NumOrError (pnum x) := .inl ⟨_, rfl⟩

theorem NumOrError.mul {a b : PyM (Val ℝ)} (ha : NumOrError a) (hb : NumOrError b) : NumOrError (a * b) := by
  rcases ha with ⟨x, rfl⟩ | ⟨e, rfl⟩
  · rcases hb with ⟨y, rfl⟩ | ⟨e, rfl⟩
    · exact .inl ⟨_, rfl⟩
    · exact .inr ⟨_, rfl⟩
  · exact .inr ⟨_, rfl⟩

theorem NumOrError.add {a b : PyM (Val ℝ)} (ha : NumOrError a) (hb : NumOrError b) : NumOrError (a + b) := by
  rcases ha with ⟨x, rfl⟩ | ⟨e, rfl⟩
  · rcases hb with ⟨y, rfl⟩ | ⟨e, rfl⟩
    · exact .inl ⟨_, rfl⟩
    · exact .inr ⟨_, rfl⟩
  · exact .inr ⟨_, rfl⟩

theorem NumOrError.div {a b : PyM (Val ℝ)} (ha : NumOrError a) (hb : NumOrError b) : NumOrError (a / b) := by
  rcases ha with ⟨x, rfl⟩ | ⟨e, rfl⟩
  · rcases hb with ⟨y, rfl⟩ | ⟨e, rfl⟩
    · rw [ok_div, Val.div]
      cases pyDiv x y
      · exact .inr ⟨_, rfl⟩
      · exact .inl ⟨_, rfl⟩
    · exact .inr ⟨_, rfl⟩
  · exact .inr ⟨_, rfl⟩

theorem NumOrError.sum (n : ℤ) (f : ℕ → PyM (Val ℝ)) (h : ∀ i, NumOrError (f i)) : NumOrError (pySum n f) := by
  unfold pySum
  induction n.toNat with
  | zero => exact .num 0
  | succ m ih => rw [List.range_succ, List.foldl_append]; exact ih.add (h m)

theorem sub_tempOn (s : Scale) (a b : ℝ) : tempOn s a - tempOn s b = tempOn s (a - b) := by
  rw [tempOn_eq, tempOn_eq, tempOn_eq, ok_sub, Val.sub, unitSub]
  simp only [isInstance, or_true, and_self, if_true, wrapUnit, mkTemp]

theorem mul_tempOn (s : Scale) (a x : ℝ) : tempOn s a * (.ok (.num x) : PyM (Val ℝ)) = tempOn s (a * x) := by
  rw [tempOn_eq, tempOn_eq, ok_mul, Val.mul, unitMul]
  · simp only [wrapUnit, mkTemp]

/-- A temperature between two others, computed as `Ts - (Ts - To)*f`, is the same on every scale. -/
theorem interpolate_scales (s t : Scale) (a b : ℝ) {f : PyM (Val ℝ)} (hf : NumOrError f) :
    inScale t (tempOn s a - (tempOn s a - tempOn s b) * f) =
      inScale t (tempOn s a) - (inScale t (tempOn s a) - inScale t (tempOn s b)) * f := by
  rcases hf with ⟨x, rfl⟩ | ⟨e, rfl⟩
  · rw [sub_tempOn, mul_tempOn, sub_tempOn, C93_convert, C93_convert, C93_convert, sub_tempOn, mul_tempOn, sub_tempOn]
    congr 1
    cases s <;> cases t <;> simp only [Scale.kelvin, Scale.reading] <;> ring
  · rw [C93_convert, C93_convert, sub_tempOn, sub_tempOn]
    simp only [tempOn_eq, mul_err, sub_err, inScale_error]

/-- Cooling of a lumped body: converting both temperatures and calling is calling and converting, for all other arguments
and also when the call raises. -/
theorem C93_lumped (s t : Scale) (a b : ℝ) (h A rho cP V time : PyM (Val ℝ)) :
    lumpedParameter (inScale t (tempOn s a)) (inScale t (tempOn s b)) h A rho cP V time =
      inScale t (lumpedParameter (tempOn s a) (tempOn s b) h A rho cP V time) :=
  (interpolate_scales s t a b (.exp _)).symm

/-- The same for the semi-infinite slab. -/
theorem C93_semi_infinite (s t : Scale) (a b : ℝ) (z time rho Cp k : PyM (Val ℝ)) :
    semiInfiniteSlabConduction (inScale t (tempOn s a)) (inScale t (tempOn s b)) z time rho Cp k =
      inScale t (semiInfiniteSlabConduction (tempOn s a) (tempOn s b) z time rho Cp k) :=
  (interpolate_scales s t a b (.erf _)).symm

/-- Multiplying a difference of temperatures by two factors. -/
theorem mul_mul_tempOn (s : Scale) (a : ℝ) {f g : PyM (Val ℝ)} (hf : NumOrError f) (hg : NumOrError g) :
    tempOn s a * f * g = tempOn s a * (f * g) := by
  rcases hf with ⟨x, rfl⟩ | ⟨e, rfl⟩
  · rcases hg with ⟨y, rfl⟩ | ⟨e, rfl⟩
    · rw [mul_tempOn, mul_tempOn, ok_mul, Val.mul, mul_tempOn, mul_assoc]
    · rw [mul_tempOn]; simp only [tempOn_eq, mul_err]
  · simp only [tempOn_eq, mul_err, err_mul]

/-- The same for the series of the finite slab, whatever the number of terms. -/
theorem C93_finite_slab (s t : Scale) (a b : ℝ) (x h k rho Cp time : PyM (Val ℝ)) (n : ℤ) :
    finiteSlabConduction (inScale t (tempOn s a)) (inScale t (tempOn s b)) x h k rho Cp time n =
      inScale t (finiteSlabConduction (tempOn s a) (tempOn s b) x h k rho Cp time n) := by
  have h1 : NumOrError ((pnum 4 : PyM (Val ℝ)) / pyPi) := NumOrError.div (.num _) (.num _)
  have h2 : NumOrError (pySum (n + 1) (slabTerm x h (k / (rho * Cp)) time)) :=
    .sum _ _ fun i => (NumOrError.mul (.div (.num _) (.num _)) (.sin _)).mul (.exp _)
  have := interpolate_scales s t a b (h1.mul h2)
  simp only [C93_convert, sub_tempOn, ← mul_mul_tempOn _ _ h1 h2] at this
  simp only [finiteSlabConduction, C93_convert, sub_tempOn]
  exact this.symm

/-- Cooling from 212 °F in air of 32 °F: the value returned, and its reading in kelvin. -/
example : lumpedParameter (tempOn .F 32) (tempOn .F 212) (htcSI 0) (areaSI 1) (densSI 1) (cpSI 1) (volSI 1) (timeSI 1)
      = tempOn .F 212 ∧
    inScale .K (lumpedParameter (tempOn .F 32) (tempOn .F 212) (htcSI 0) (areaSI 1) (densSI 1) (cpSI 1) (volSI 1)
      (timeSI 1)) = tempSI (37315 / 100) := by
  have h : lumpedParameter (tempOn .F 32) (tempOn .F 212) (htcSI 0) (areaSI 1) (densSI 1) (cpSI 1) (volSI 1) (timeSI 1)
      = tempOn .F 212 := by
    have h1 : (1 : ℝ) ≠ 0 := one_ne_zero
    units_eval [tempOn, Scale.sym, areaSI, timeSI, volSI, densSI, cpSI, htcSI, lumpedParameter, pyExp_num, h1]
    exact okUnit_congr (by norm_num)
  refine ⟨h, ?_⟩
  rw [h, C93_convert]
  simp only [Scale.reading, Scale.kelvin, tempOn, Scale.sym, tempSI]
  norm_num

/-! ## Ratios of temperature differences -/

theorem div_tempOn (s : Scale) (a b : ℝ) : tempOn s a / tempOn s b = (if b = 0 then .error .zeroDivision else
    .ok (.num (a / b)) : PyM (Val ℝ)) := by
  rw [tempOn_eq, tempOn_eq, ok_div, Val.div, unitDiv, pyDiv]
  by_cases h : b = 0 <;> simp [h]

theorem ratio_scales (s t : Scale) (a b c d : ℝ) :
    tempOn t (t.reading a - t.reading b) / tempOn t (t.reading c - t.reading d) =
      tempOn s (s.reading a - s.reading b) / tempOn s (s.reading c - s.reading d) := by
  have hs := (step_pos s).ne'
  have ht := (step_pos t).ne'
  simp only [div_tempOn, reading_sub, mul_eq_zero, hs, ht, false_or]
  rw [mul_div_mul_left _ _ hs, mul_div_mul_left _ _ ht]

/-- z_factor does not depend on the scale; a zero temperature rise raises on every scale. -/
theorem C93_z_factor (s t : Scale) (a b c d : ℝ) :
    zFactor (inScale t (tempOn s a)) (inScale t (tempOn s b)) (inScale t (tempOn s c)) (inScale t (tempOn s d)) =
      zFactor (tempOn s a) (tempOn s b) (tempOn s c) (tempOn s d) := by
  rw [C93_convert, C93_convert, C93_convert, C93_convert]
  conv_rhs => rw [← reading_kelvin s a, ← reading_kelvin s b, ← reading_kelvin s c, ← reading_kelvin s d]
  simp only [zFactor, sub_tempOn]
  exact ratio_scales s t _ _ _ _

/-- nh_factor does not depend on the scale. -/
theorem C93_nh_factor (s t : Scale) (a b c : ℝ) :
    nhFactor (inScale t (tempOn s a)) (inScale t (tempOn s b)) (inScale t (tempOn s c)) =
      nhFactor (tempOn s a) (tempOn s b) (tempOn s c) := by
  rw [C93_convert, C93_convert, C93_convert]
  conv_rhs => rw [← reading_kelvin s a, ← reading_kelvin s b, ← reading_kelvin s c]
  simp only [nhFactor, sub_tempOn]
  exact ratio_scales s t _ _ _ _


/-- The log mean difference of a counter-current exchanger: on another scale the same number of kelvins, now counted in
degrees of that scale; the same exception otherwise. -/
theorem C93_log_mean (s t : Scale) (a b c d : ℝ) :
    (∃ x, deltatLogmean (tempOn s (s.reading a)) (tempOn s (s.reading b)) (tempOn s (s.reading c))
        (tempOn s (s.reading d)) = tempOn s (s.step * x) ∧
      deltatLogmean (tempOn t (t.reading a)) (tempOn t (t.reading b)) (tempOn t (t.reading c))
        (tempOn t (t.reading d)) = tempOn t (t.step * x)) ∨
    ∃ e, deltatLogmean (tempOn s (s.reading a)) (tempOn s (s.reading b)) (tempOn s (s.reading c))
        (tempOn s (s.reading d)) = .error e ∧
      deltatLogmean (tempOn t (t.reading a)) (tempOn t (t.reading b)) (tempOn t (t.reading c))
        (tempOn t (t.reading d)) = .error e := by
  have key : ∀ r : Scale, deltatLogmean (tempOn r (r.reading a)) (tempOn r (r.reading b)) (tempOn r (r.reading c))
      (tempOn r (r.reading d)) = if b - c = 0 then .error .zeroDivision else if 0 < (a - d) / (b - c) then
        (if Real.log ((a - d) / (b - c)) = 0 then .error .zeroDivision else
          tempOn r (r.step * (((a - d) - (b - c)) / Real.log ((a - d) / (b - c))))) else .error .valueError := by
    intro r
    have hr := (step_pos r).ne'
    simp only [deltatLogmean, Bool.false_eq_true, if_false, sub_tempOn, reading_sub, div_tempOn, mul_eq_zero, hr, false_or,
      mul_div_mul_left _ _ hr]
    by_cases h1 : b - c = 0
    · simp only [h1, if_true, pyLog_err, tempOn_eq, div_err]
    · simp only [h1, if_false]
      by_cases h2 : 0 < (a - d) / (b - c)
      · simp only [h2, if_true, pyLog_num]
        rw [tempOn_eq, ok_div, Val.div, unitDiv, pyDiv]
        by_cases h3 : Real.log ((a - d) / (b - c)) = 0
        · simp only [h3, if_true]
        · simp only [h3, if_false, mkTemp, wrapUnit]
          rw [tempOn_eq, ← mul_sub, mul_div_assoc]
      · simp only [h2, if_false, pyLog, lift1, tempOn_eq]
        rfl
  rw [key s, key t]
  split_ifs
  · exact .inr ⟨_, rfl, rfl⟩
  · exact .inr ⟨_, rfl, rfl⟩
  · exact .inl ⟨_, rfl, rfl⟩
  · exact .inr ⟨_, rfl, rfl⟩

/-- A difference of 100 against one of 50. -/
example : deltatLogmean (tempOn .F 300) (tempOn .F 200) (tempOn .F 150) (tempOn .F 200) =
    tempOn .F (50 / Real.log 2) := by
  have h : Real.log 2 ≠ 0 := (Real.log_pos one_lt_two).ne'
  simp only [deltatLogmean, Bool.false_eq_true, if_false, sub_tempOn, div_tempOn]
  norm_num
  rw [pyLog_num two_pos, tempOn_eq, ok_div, Val.div, unitDiv, pyDiv]
  simp [h, mkTemp, wrapUnit, tempOn_eq]

/-- `convert_to("K")` on a log mean difference counted in degrees Celsius adds 273.15 to it. -/
theorem C93_log_mean_celsius (a b c d x : ℝ)
    (h : deltatLogmean (tempSI a) (tempSI b) (tempSI c) (tempSI d) = tempSI x) :
    inScale .K (deltatLogmean (tempOn .C (a - 27315 / 100)) (tempOn .C (b - 27315 / 100)) (tempOn .C (c - 27315 / 100))
      (tempOn .C (d - 27315 / 100))) = tempSI (x + 27315 / 100) := by
  have hK : ∀ y, tempSI y = tempOn .K y := fun _ => rfl
  rcases C93_log_mean .K .C a b c d with ⟨y, h1, h2⟩ | ⟨e, h1, -⟩
  · simp only [Scale.reading, Scale.step, one_mul] at h1 h2
    rw [h2, C93_convert, hK]
    simp only [hK] at h
    rw [h, tempOn_eq, tempOn_eq] at h1
    simp only [Except.ok.injEq, Val.unit.injEq, UnitV.mk.injEq, and_true, true_and] at h1
    rw [h1]
    simp only [Scale.kelvin, Scale.reading]
    norm_num
  · simp only [Scale.reading] at h1
    simp only [hK] at h
    rw [h, tempOn_eq] at h1
    cases h1

/-- So converting first and converting last disagree, whenever there is a log mean at all. -/
theorem C93_log_mean_convert_false (a b c d x : ℝ)
    (h : deltatLogmean (tempSI a) (tempSI b) (tempSI c) (tempSI d) = tempSI x) :
    inScale .K (deltatLogmean (tempOn .C (a - 27315 / 100)) (tempOn .C (b - 27315 / 100)) (tempOn .C (c - 27315 / 100))
      (tempOn .C (d - 27315 / 100))) ≠ deltatLogmean (tempSI a) (tempSI b) (tempSI c) (tempSI d) := by
  rw [C93_log_mean_celsius a b c d x h, h]
  change tempOn .K _ ≠ tempOn .K _
  rw [tempOn_eq, tempOn_eq]
  intro h
  simp only [Except.ok.injEq, Val.unit.injEq, UnitV.mk.injEq, and_true, true_and] at h
  norm_num at h

/-! ## Steady conduction, all degrees of one scale -/

/-- `ThermalConductivity(k, "W/m*C")` and so on. -/
def condOn (s : Scale) (k : ℝ) : PyM (Val ℝ) := qM c!"ThermalConductivity" k (c!"W/m*" ++ s.sym)

/-- With the conductivity per degree of the scale of the temperatures the heat flow is Fourier's law in watt. -/
theorem C93_heat_flow (s : Scale) (k t1 t2 a x : ℝ) (hx : x ≠ 0) :
    pcall (planarHeat · []) [condOn s k, tempOn s t1, tempOn s t2, areaSI a, lenSI x]
      = qMulti (-k * a * (t2 - t1) / x) c!"W" := by
  cases s <;>
  · units_eval [condOn, Scale.sym, List.cons_append, List.nil_append, tempOn, areaSI, lenSI, planarHeat_q, hx]
    exact okMulti_congr (by field_simp)

theorem C93_thickness (s : Scale) (k t1 t2 a q : ℝ) (hq : q ≠ 0) :
    pcall (planarHeat · []) [condOn s k, tempOn s t1, tempOn s t2, areaSI a, pNone, qMulti q c!"W"]
      = qU .unit (-k * a * (t2 - t1) / q) c!"m" := by
  cases s <;>
  · units_eval [condOn, Scale.sym, List.cons_append, List.nil_append, tempOn, areaSI, lenSI, planarHeat_thickness, hq]
    exact okUnit_congr (by field_simp)

/-- The far temperature solved for is a reading on the same scale. -/
theorem C93_T2 (s : Scale) (k t1 a x q : ℝ) (hk : k ≠ 0) (ha : a ≠ 0) :
    pcall (planarHeat · []) [condOn s k, tempOn s t1, pNone, areaSI a, lenSI x, qMulti q c!"W"]
      = qU .unit (t1 - q * x / (k * a)) s.sym := by
  cases s <;>
  · units_eval [condOn, Scale.sym, List.cons_append, List.nil_append, tempOn, areaSI, lenSI, planarHeat_T2, hk, ha]
    exact okUnit_congr (by field_simp; ring)

theorem C93_T1 (s : Scale) (k t2 a x q : ℝ) (hk : k ≠ 0) (ha : a ≠ 0) :
    pcall (planarHeat · []) [condOn s k, pNone, tempOn s t2, areaSI a, lenSI x, qMulti q c!"W"]
      = qU .unit (t2 + q * x / (k * a)) s.sym := by
  cases s <;>
  · units_eval [condOn, Scale.sym, List.cons_append, List.nil_append, tempOn, areaSI, lenSI, planarHeat_T1, hk, ha]
    exact okUnit_congr (by field_simp; ring)


/-! ## Steady conduction, degrees of two scales -/

theorem inUnit_multi {q : ℚ} {top bot t b : UList} {unit : Sym}
    (h : convertMulti (K := ℚ) stdTables ⟨.multi, 1, top, bot⟩ unit = .ok ⟨.multi, q, t, b⟩) (v : ℝ) :
    inUnit unit (.ok (.multi ⟨.multi, v, top, bot⟩)) = .ok (.multi ⟨.multi, v * q, t, b⟩) := by
  simp only [inUnit, lift1, callConvert, convertMulti_cast h]

theorem inUnit_fails {top bot t b : UList} {unit : Sym} (hp : parseUnits unit = .ok (t, b)) (hm : Ordinary top bot)
    (ht : Ordinary t b) (hd : dimOfUnit top bot ≠ dimOfUnit t b) (v : ℝ) :
    ∃ e, inUnit unit (.ok (.multi ⟨.multi, v, top, bot⟩)) = .error e := by
  simp only [inUnit, lift1, callConvert]
  cases h : convertMulti stdTables (⟨.multi, v, top, bot⟩ : MultiV ℝ) unit with
  | error e => exact ⟨e, rfl⟩
  | ok r => exact absurd ((C76_convertible_iff_partial _ _ _ _ hp hm ht).1 ⟨r, h⟩).1 hd

/-- Kelvin, Rankine and Fahrenheit may be mixed in a heat flow: converted to watt it is Fourier's law for the thermodynamic
temperatures. -/
theorem C93_heat_mixed_partial (s u : Scale) (h : s = u ∨ s ≠ .C ∧ u ≠ .C) (k T1 T2 a x : ℝ) (hx : x ≠ 0) :
    inUnit c!"W" (pcall (planarHeat · []) [condOn u k, tempOn s (s.reading T1), tempOn s (s.reading T2), areaSI a, lenSI x])
      = qMulti (-(k * u.step) * a * (T2 - T1) / x) c!"W" := by
  cases s <;> cases u <;> simp only [reduceCtorEq, ne_eq, not_true_eq_false, and_false, false_and, or_self] at h <;>
  · units_eval [condOn, Scale.sym, List.cons_append, List.nil_append, tempOn, areaSI, lenSI, planarHeat_q, hx]
    first
      | rw [inUnit_multi (q := 1) (t := [⟨c!"W", 1⟩]) (b := []) (by decide +kernel)]
      | rw [inUnit_multi (q := 5 / 9) (t := [⟨c!"W", 1⟩]) (b := []) (by decide +kernel)]
      | rw [inUnit_multi (q := 9 / 5) (t := [⟨c!"W", 1⟩]) (b := []) (by decide +kernel)]
    exact okMulti_congr (by simp only [Scale.reading, Scale.step]; push_cast; field_simp <;> ring)

/-- Celsius may not: for all values the result cannot be converted to watt. -/
theorem C93_heat_celsius_false (s u : Scale) (hu : s ≠ u) (h : s = .C ∨ u = .C) (k T1 T2 a x : ℝ) (hx : x ≠ 0) :
    ∃ e, inUnit c!"W" (pcall (planarHeat · []) [condOn u k, tempOn s (s.reading T1), tempOn s (s.reading T2), areaSI a,
      lenSI x]) = .error e := by
  cases s <;> cases u <;> simp only [reduceCtorEq, ne_eq, not_true_eq_false, or_self] at h hu <;>
  · units_eval [condOn, Scale.sym, List.cons_append, List.nil_append, tempOn, areaSI, lenSI, planarHeat_q, hx]
    exact inUnit_fails (t := [⟨c!"W", 1⟩]) (b := []) (by decide +kernel) (by decide +kernel) (by decide +kernel)
      (by decide +kernel) _

/-- Which combinations of scales give the heat flow. -/
theorem C93_heat_exact (s u : Scale) (k T1 T2 a x : ℝ) (hx : x ≠ 0) :
    inUnit c!"W" (pcall (planarHeat · []) [condOn u k, tempOn s (s.reading T1), tempOn s (s.reading T2), areaSI a, lenSI x])
      = qMulti (-(k * u.step) * a * (T2 - T1) / x) c!"W" ↔ (s = u ∨ s ≠ .C ∧ u ≠ .C) := by
  refine ⟨fun h => ?_, fun h => C93_heat_mixed_partial s u h k T1 T2 a x hx⟩
  by_contra hn
  have h1 : s ≠ u := fun h => hn (.inl h)
  have h2 : s = .C ∨ u = .C := by
    by_contra h'
    exact hn (.inr ⟨fun h => h' (.inl h), fun h => h' (.inr h)⟩)
  obtain ⟨e, he⟩ := C93_heat_celsius_false s u h1 h2 k T1 T2 a x hx
  rw [he] at h
  cases h

/-- A temperature is never found from a conductivity per degree of another scale: the sum of the two raises TypeError. -/
theorem C93_T2_mixed_false (s u : Scale) (hu : s ≠ u) (k t1 a x q : ℝ) (hk : k ≠ 0) (ha : a ≠ 0) :
    pcall (planarHeat · []) [condOn u k, tempOn s t1, pNone, areaSI a, lenSI x, qMulti q c!"W"] = .error .typeError := by
  cases s <;> cases u <;> simp only [ne_eq, not_true_eq_false] at hu <;>
  · units_eval [condOn, Scale.sym, List.cons_append, List.nil_append, tempOn, areaSI, lenSI, planarHeat_T2, hk, ha]

theorem C93_T1_mixed_false (s u : Scale) (hu : s ≠ u) (k t1 a x q : ℝ) (hk : k ≠ 0) (ha : a ≠ 0) :
    pcall (planarHeat · []) [condOn u k, pNone, tempOn s t1, areaSI a, lenSI x, qMulti q c!"W"] = .error .typeError := by
  cases s <;> cases u <;> simp only [ne_eq, not_true_eq_false] at hu <;>
  · units_eval [condOn, Scale.sym, List.cons_append, List.nil_append, tempOn, areaSI, lenSI, planarHeat_T1, hk, ha]

end Verif
