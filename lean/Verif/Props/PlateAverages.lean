import Mathlib.Analysis.SpecialFunctions.Integrals.Basic
import Verif.Props.Coefficients

/-!
# C110: the average correlations of a plate are averages of the local ones

A plate of length `l` in a stream with Reynolds number `w x` at the distance `x` from its edge.  The mean of the local heat
transfer coefficients over the plate is compared with what the functions for the average return.
-/

namespace Verif

open MeasureTheory intervalIntegral

/-- The mean of `h` over a plate of length `l`. -/
noncomputable def plateMean (h : ℝ → ℝ) (l : ℝ) : ℝ := (∫ x in (0 : ℝ)..l, h x) / l

/-- A call returns a quantity of SI size `h`. -/
def HasSI (r : PyM (Val ℝ)) (h : ℝ) : Prop := ∃ v, r = .ok v ∧ HasMag siR v h

/-- A local coefficient that goes with the power `a` of the Reynolds number. -/
theorem power_local {a w x C : ℝ} (hw : 0 < w) (hx : 0 < x) : C * (w * x) ^ a / x = C * w ^ a * x ^ (a - 1) := by
  rw [Real.mul_rpow hw.le hx.le, Real.rpow_sub_one hx.ne']
  field_simp

theorem power_integral {a b c : ℝ} (ha : 0 < a) (C : ℝ) :
    ∫ x in b..c, C * x ^ (a - 1) = C * (c ^ a - b ^ a) / a := by
  rw [intervalIntegral.integral_const_mul, integral_rpow (.inl (by linarith))]
  rw [sub_add_cancel]
  ring

theorem power_integrable {a b c : ℝ} (ha : 0 < a) (C : ℝ) : IntervalIntegrable (fun x => C * x ^ (a - 1)) volume b c :=
  (intervalIntegrable_rpow' (by linarith)).const_mul C

theorem power_mean {a w l C : ℝ} (ha : 0 < a) (hw : 0 < w) (hl : 0 < l) :
    plateMean (fun x => C * w ^ a * x ^ (a - 1)) l = C / a * (w * l) ^ a / l := by
  rw [plateMean, power_integral ha, Real.zero_rpow ha.ne', Real.mul_rpow hw.le hl.le]
  ring

/-! ## Laminar flow -/

/-- Laminar flow: the average coefficient is the mean of the local coefficients, in W/m²K, for lengths in any of nine
units. -/
theorem C110_laminar (fmt : ℚ → Sym) (u : Sym) (hu : u ∈ htcLengths) (w Pr psi kv l : ℝ) (hw : 0 < w) (hPr : 0 < Pr)
    (hl : 0 < l) :
    ∃ h : ℝ → ℝ, IntervalIntegrable h volume 0 l ∧
      (∀ x, 0 < x → htcLaminarLocal stdTables fmt (pnum (w * x)) (pnum Pr) (.ok (.unit ⟨.length, x, u, 1⟩)) (condSI kv)
        (pnum psi) = qM c!"HeatTransferCoefficient" (h x) c!"W/m^2*K") ∧
      htcLaminarAvg stdTables fmt (pnum (w * l)) (pnum Pr) (.ok (.unit ⟨.length, l, u, 1⟩)) (condSI kv) (pnum psi) =
        qM c!"HeatTransferCoefficient" (plateMean h l) c!"W/m^2*K" := by
  refine ⟨fun x => 332 / 1000 * Pr ^ (1 / 3 : ℝ) * psi * kv / ((siSize u : ℚ) : ℝ) * w ^ (1 / 2 : ℝ) * x ^ ((1 / 2 : ℝ) - 1),
    power_integrable (by norm_num) _, fun x hx => ?_, ?_⟩
  · rw [C72_laminar_local_SI _ _ _ fmt x kv (mul_pos hw hx) hPr hx.ne' u hu]
    congr 1
    beta_reduce
    rw [← power_local hw hx, Real.sqrt_eq_rpow]
    field_simp
  · rw [C72_laminar_average_SI _ _ _ fmt l kv (mul_pos hw hl) hPr hl.ne' u hu]
    congr 1
    rw [power_mean (by norm_num) hw hl, Real.sqrt_eq_rpow]
    ring

/-- The same in BTU/hr·ft²·F for a conductivity in BTU/hr·ft·F. -/
theorem C110_laminar_BTU (fmt : ℚ → Sym) (u : Sym) (hu : u ∈ htcLengths) (w Pr psi kv l : ℝ) (hw : 0 < w) (hPr : 0 < Pr)
    (hl : 0 < l) :
    ∃ h : ℝ → ℝ, IntervalIntegrable h volume 0 l ∧
      (∀ x, 0 < x → htcLaminarLocal stdTables fmt (pnum (w * x)) (pnum Pr) (.ok (.unit ⟨.length, x, u, 1⟩))
        (qM c!"ThermalConductivity" kv c!"BTU/hr*ft*F") (pnum psi) =
          qM c!"HeatTransferCoefficient" (h x) c!"BTU/hr*ft^2*F") ∧
      htcLaminarAvg stdTables fmt (pnum (w * l)) (pnum Pr) (.ok (.unit ⟨.length, l, u, 1⟩))
        (qM c!"ThermalConductivity" kv c!"BTU/hr*ft*F") (pnum psi) =
          qM c!"HeatTransferCoefficient" (plateMean h l) c!"BTU/hr*ft^2*F" := by
  refine ⟨fun x => 332 / 1000 * Pr ^ (1 / 3 : ℝ) * psi * kv / ((siSize u / siSize c!"ft" : ℚ) : ℝ) * w ^ (1 / 2 : ℝ) *
    x ^ ((1 / 2 : ℝ) - 1), power_integrable (by norm_num) _, fun x hx => ?_, ?_⟩
  · rw [C72_laminar_local_BTU _ _ _ fmt x kv (mul_pos hw hx) hPr hx.ne' u hu]
    congr 1
    beta_reduce
    rw [← power_local hw hx, Real.sqrt_eq_rpow]
    field_simp
  · rw [C72_laminar_average_BTU _ _ _ fmt l kv (mul_pos hw hl) hPr hl.ne' u hu]
    congr 1
    rw [power_mean (by norm_num) hw hl, Real.sqrt_eq_rpow]
    ring

example : c!"ft" ∈ htcLengths := by decide

/-! ## Turbulent flow -/

theorem umag_length (x : ℝ) (u : Sym) : (⟨.length, x, u, 1⟩ : UnitV ℝ).mag siR = x * ((siSize u : ℚ) : ℝ) := by
  simp [UnitV.mag, siR]

/-- Turbulent flow from the edge on, any units: the mean of the local coefficients is the average coefficient plus
`871 Pr^(1/3) ψ k / l`, the part that the average leaves out for the laminar beginning. -/
theorem C110_turbulent (k : MultiV ℝ) (hk : k.Genuine) (u : Sym) (hu : WellPrefixed u) (w Pr psi l : ℝ) (hw : 0 < w)
    (hPr : 0 < Pr) (hl : 0 < l) :
    ∃ (h : ℝ → ℝ) (a : ℝ), IntervalIntegrable h volume 0 l ∧
      (∀ x, 0 < x → HasSI (htcTurbulentLocal (pnum (w * x)) (pnum Pr) (.ok (.unit ⟨.length, x, u, 1⟩)) (.ok (.multi k))
        (pnum psi)) (h x)) ∧
      HasSI (htcTurbulentAvg (pnum (w * l)) (pnum Pr) (.ok (.unit ⟨.length, l, u, 1⟩)) (.ok (.multi k)) (pnum psi)) a ∧
      plateMean h l = a + 871 * Pr ^ (1 / 3 : ℝ) * psi * k.mag siR / (l * ((siSize u : ℚ) : ℝ)) := by
  have hs : ((siSize u : ℚ) : ℝ) ≠ 0 := by exact_mod_cast (siSize_pos u).ne'
  refine ⟨fun x => 296 / 10000 * Pr ^ (1 / 3 : ℝ) * psi * k.mag siR / ((siSize u : ℚ) : ℝ) * w ^ (4 / 5 : ℝ) *
    x ^ ((4 / 5 : ℝ) - 1), (37 / 1000 * (w * l) ^ (4 / 5 : ℝ) - 871) * Pr ^ (1 / 3 : ℝ) * psi * k.mag siR /
      (l * ((siSize u : ℚ) : ℝ)), power_integrable (by norm_num) _, fun x hx => ?_, ?_, ?_⟩
  · obtain ⟨r, e, h⟩ := C72_turbulent_local (w * x) Pr psi (mul_pos hw hx) hPr k ⟨.length, x, u, 1⟩ hk hu hx.ne'
    refine ⟨r, e, (h siR siSize_coherent).of_eq ?_⟩
    beta_reduce
    rw [← power_local hw hx, umag_length]
    field_simp
  · obtain ⟨r, e, h⟩ := C72_turbulent_average (w * l) Pr psi (mul_pos hw hl) hPr k ⟨.length, l, u, 1⟩ hk hu hl.ne'
    refine ⟨r, e, (h siR siSize_coherent).of_eq ?_⟩
    rw [umag_length]
  · rw [power_mean (by norm_num) hw hl]
    field_simp
    ring

/-! ## Transition at a Reynolds number of 500000 -/

theorem transition_turbulent : 36238 < (500000 : ℝ) ^ (4 / 5 : ℝ) ∧ (500000 : ℝ) ^ (4 / 5 : ℝ) < 36239 := by
  have h5 : ((500000 : ℝ) ^ (4 / 5 : ℝ)) ^ 5 = 500000 ^ 4 := by
    rw [← Real.rpow_natCast, ← Real.rpow_mul (by norm_num), ← Real.rpow_natCast]
    norm_num
  have h0 : 0 ≤ (500000 : ℝ) ^ (4 / 5 : ℝ) := by positivity
  constructor
  · refine lt_of_pow_lt_pow_left₀ 5 h0 ?_
    rw [h5]; norm_num
  · refine lt_of_pow_lt_pow_left₀ 5 (by norm_num) ?_
    rw [h5]; norm_num

theorem transition_laminar : 7071 / 10 < (500000 : ℝ) ^ (1 / 2 : ℝ) ∧ (500000 : ℝ) ^ (1 / 2 : ℝ) < 70711 / 100 := by
  rw [← Real.sqrt_eq_rpow]
  constructor
  · rw [Real.lt_sqrt (by norm_num)]; norm_num
  · rw [Real.sqrt_lt' (by norm_num)]; norm_num

/-- The mean over a plate that is laminar up to the Reynolds number 500000 and turbulent from there on. -/
theorem mixed_mean {w l A B : ℝ} (hw : 0 < w) (hl : 0 < l) (hR : 500000 ≤ w * l) (h : ℝ → ℝ)
    (h1 : ∀ x, 0 < x → w * x ≤ 500000 → h x = A * w ^ (1 / 2 : ℝ) * x ^ ((1 / 2 : ℝ) - 1))
    (h2 : ∀ x, 500000 < w * x → h x = B * w ^ (4 / 5 : ℝ) * x ^ ((4 / 5 : ℝ) - 1)) :
    IntervalIntegrable h volume 0 l ∧
      plateMean h l = (2 * A * 500000 ^ (1 / 2 : ℝ) + 5 / 4 * B * ((w * l) ^ (4 / 5 : ℝ) - 500000 ^ (4 / 5 : ℝ))) / l := by
  have hc0 : 0 < 500000 / w := by positivity
  have hcl : 500000 / w ≤ l := by rw [div_le_iff₀ hw]; linarith
  have e1 : ∀ x ∈ Set.uIoc 0 (500000 / w), h x = A * w ^ (1 / 2 : ℝ) * x ^ ((1 / 2 : ℝ) - 1) := by
    intro x hx
    rw [Set.uIoc_of_le hc0.le] at hx
    refine h1 x hx.1 ?_
    have := (le_div_iff₀ hw).1 hx.2
    linarith
  have e2 : ∀ x ∈ Set.uIoc (500000 / w) l, h x = B * w ^ (4 / 5 : ℝ) * x ^ ((4 / 5 : ℝ) - 1) := by
    intro x hx
    rw [Set.uIoc_of_le hcl] at hx
    refine h2 x ?_
    have := (div_lt_iff₀ hw).1 hx.1
    linarith
  have i1 : IntervalIntegrable h volume 0 (500000 / w) :=
    (power_integrable (a := 1 / 2) (by norm_num) (A * w ^ (1 / 2 : ℝ))).congr fun x hx => (e1 x hx).symm
  have i2 : IntervalIntegrable h volume (500000 / w) l :=
    (power_integrable (a := 4 / 5) (by norm_num) (B * w ^ (4 / 5 : ℝ))).congr fun x hx => (e2 x hx).symm
  refine ⟨i1.trans i2, ?_⟩
  rw [plateMean, ← integral_add_adjacent_intervals i1 i2,
    integral_congr_ae (Filter.Eventually.of_forall e1), integral_congr_ae (Filter.Eventually.of_forall e2),
    power_integral (by norm_num), power_integral (by norm_num), Real.zero_rpow (by norm_num), Real.div_rpow (by norm_num) hw.le,
    Real.div_rpow (by norm_num) hw.le, Real.mul_rpow hw.le hl.le]
  have p1 : w ^ (1 / 2 : ℝ) ≠ 0 := (Real.rpow_pos_of_pos hw _).ne'
  have p2 : w ^ (4 / 5 : ℝ) ≠ 0 := (Real.rpow_pos_of_pos hw _).ne'
  field_simp
  ring

/-- The local coefficient along a plate: laminar up to the Reynolds number 500000, turbulent from there on. -/
noncomputable def plateLocal (fmt : ℚ → Sym) (Re Pr psi : ℝ) (x : PyM (Val ℝ)) (k : PyM (Val ℝ)) : PyM (Val ℝ) :=
  if Re ≤ 500000 then htcLaminarLocal stdTables fmt (pnum Re) (pnum Pr) x k (pnum psi)
  else htcTurbulentLocal (pnum Re) (pnum Pr) x k (pnum psi)

/-- Laminar flow up to the Reynolds number 500000 and turbulent flow from there on: the average coefficient for turbulent
flow is within 0.1 % of the mean of the local coefficients, for every plate that reaches the transition. -/
theorem C110_transition (fmt : ℚ → Sym) (u : Sym) (hu : u ∈ htcLengths) (w Pr psi kv l : ℝ) (hw : 0 < w) (hPr : 0 < Pr)
    (hpsi : 0 < psi) (hk : 0 < kv) (hl : 0 < l) (hR : 500000 ≤ w * l) :
    ∃ (h : ℝ → ℝ) (a : ℝ), IntervalIntegrable h volume 0 l ∧
      (∀ x, 0 < x → HasSI (plateLocal fmt (w * x) Pr psi (.ok (.unit ⟨.length, x, u, 1⟩)) (condSI kv)) (h x)) ∧
      HasSI (htcTurbulentAvg (pnum (w * l)) (pnum Pr) (.ok (.unit ⟨.length, l, u, 1⟩)) (condSI kv) (pnum psi)) a ∧
      0 < a ∧ |plateMean h l - a| ≤ a / 1000 := by
  have hs : 0 < ((siSize u : ℚ) : ℝ) := by exact_mod_cast siSize_pos u
  have hwu : WellPrefixed u := (by decide : ∀ u ∈ htcLengths, WellPrefixed u) u hu
  have hP : 0 < Pr ^ (1 / 3 : ℝ) := Real.rpow_pos_of_pos hPr _
  have e : condSI kv = (.ok (.multi ⟨.sub c!"ThermalConductivity", kv, [⟨c!"W", 1⟩], [⟨c!"m", 1⟩, ⟨c!"K", 1⟩]⟩) : PyM (Val ℝ)) := by
    units_eval [condSI]
  have hg : (⟨.sub c!"ThermalConductivity", kv, [⟨c!"W", 1⟩], [⟨c!"m", 1⟩, ⟨c!"K", 1⟩]⟩ : MultiV ℝ).Genuine := by
    show WellPrefixedList [⟨c!"W", 1⟩] ∧ WellPrefixedList [⟨c!"m", 1⟩, ⟨c!"K", 1⟩]
    decide
  have hm : (⟨.sub c!"ThermalConductivity", kv, [⟨c!"W", 1⟩], [⟨c!"m", 1⟩, ⟨c!"K", 1⟩]⟩ : MultiV ℝ).mag siR = kv := by
    have s1 : siSize c!"W" = 1 := by decide +kernel
    have s2 : siSize c!"m" = 1 := by decide +kernel
    have s3 : siSize c!"K" = 1 := by decide +kernel
    simp [MultiV.mag, mag, lsize, siR, s1, s2, s3]
  set c := Pr ^ (1 / 3 : ℝ) * psi * kv / ((siSize u : ℚ) : ℝ) with hc
  have hcp : 0 < c := by positivity
  let h : ℝ → ℝ := fun x => if w * x ≤ 500000 then 332 / 1000 * c * w ^ (1 / 2 : ℝ) * x ^ ((1 / 2 : ℝ) - 1)
    else 296 / 10000 * c * w ^ (4 / 5 : ℝ) * x ^ ((4 / 5 : ℝ) - 1)
  obtain ⟨hi, hmean⟩ := mixed_mean (A := 332 / 1000 * c) (B := 296 / 10000 * c) hw hl hR h
    (fun x _ hx => if_pos hx) (fun x hx => if_neg (not_le.2 hx))
  refine ⟨h, (37 / 1000 * (w * l) ^ (4 / 5 : ℝ) - 871) * c / l, hi, fun x hx => ?_, ?_, ?_⟩
  · by_cases hwx : w * x ≤ 500000
    · simp only [plateLocal, h, if_pos hwx]
      rw [C72_laminar_local_SI _ _ _ fmt x kv (mul_pos hw hx) hPr hx.ne' u hu]
      refine ⟨.multi ⟨.sub c!"HeatTransferCoefficient", 332 / 1000 * √(w * x) * Pr ^ (1 / 3 : ℝ) * psi * kv / (x * ((siSize u : ℚ) : ℝ)),
        [⟨c!"W", 1⟩], [⟨c!"m", 2⟩, ⟨c!"K", 1⟩]⟩, by units_eval [qM], ?_⟩
      refine (HasMag.multi _).of_eq ?_
      have s1 : siSize c!"W" = 1 := by decide +kernel
      have s2 : siSize c!"m" = 1 := by decide +kernel
      have s3 : siSize c!"K" = 1 := by decide +kernel
      rw [← power_local hw hx, hc]
      simp [MultiV.mag, mag, lsize, siR, s1, s2, s3, Real.sqrt_eq_rpow]
      field_simp
    · simp only [plateLocal, h, if_neg hwx]
      obtain ⟨r, er, hr⟩ := C72_turbulent_local (w * x) Pr psi (mul_pos hw hx) hPr _ ⟨.length, x, u, 1⟩ hg hwu hx.ne'
      rw [e]
      refine ⟨r, er, (hr siR siSize_coherent).of_eq ?_⟩
      rw [← power_local hw hx, umag_length, hm, hc]
      field_simp
  · obtain ⟨r, er, hr⟩ := C72_turbulent_average (w * l) Pr psi (mul_pos hw hl) hPr _ ⟨.length, l, u, 1⟩ hg hwu hl.ne'
    rw [e]
    refine ⟨r, er, (hr siR siSize_coherent).of_eq ?_⟩
    rw [umag_length, hm, hc]
    field_simp
  · obtain ⟨t1, t2⟩ := transition_turbulent
    obtain ⟨l1, l2⟩ := transition_laminar
    have hmono : (500000 : ℝ) ^ (4 / 5 : ℝ) ≤ (w * l) ^ (4 / 5 : ℝ) := Real.rpow_le_rpow (by norm_num) hR (by norm_num)
    rw [hmean]
    generalize (500000 : ℝ) ^ (4 / 5 : ℝ) = X at *
    generalize (500000 : ℝ) ^ (1 / 2 : ℝ) = Y at *
    generalize (w * l) ^ (4 / 5 : ℝ) = Z at *
    have hN : 0 < 37 / 1000 * Z - 871 := by linarith
    refine ⟨by positivity, ?_⟩
    have hd : (2 * (332 / 1000 * c) * Y + 5 / 4 * (296 / 10000 * c) * (Z - X)) / l - (37 / 1000 * Z - 871) * c / l =
        c / l * (664 / 1000 * Y - 37 / 1000 * X + 871) := by ring
    have ha : (37 / 1000 * Z - 871) * c / l / 1000 = c / l * ((37 / 1000 * Z - 871) / 1000) := by ring
    rw [hd, ha, abs_mul, abs_of_pos (by positivity)]
    refine mul_le_mul_of_nonneg_left ?_ (by positivity)
    rw [abs_le]
    constructor <;> linarith

/-- Below the transition the average for turbulent flow is no average at all: it is negative below a Reynolds number of
290000, whatever the units. -/
theorem C110_turbulent_negative_false (k : MultiV ℝ) (hk : k.Genuine) (hkv : 0 < k.value) (L : UnitV ℝ) (hL : WellPrefixed L.unit)
    (h0 : 0 < L.value) (Re Pr psi : ℝ) (hRe : 0 < Re) (hR : Re ≤ 290000) (hPr : 0 < Pr) (hpsi : 0 < psi) :
    ∃ a, HasSI (htcTurbulentAvg (pnum Re) (pnum Pr) (.ok (.unit L)) (.ok (.multi k)) (pnum psi)) a ∧ a < 0 := by
  obtain ⟨r, e, h⟩ := C72_turbulent_average Re Pr psi hRe hPr k L hk hL h0.ne'
  refine ⟨_, ⟨r, e, h siR siSize_coherent⟩, ?_⟩
  have h5 : ((290000 : ℝ) ^ (4 / 5 : ℝ)) ^ 5 = 290000 ^ 4 := by
    rw [← Real.rpow_natCast, ← Real.rpow_mul (by norm_num), ← Real.rpow_natCast]
    norm_num
  have hb : (290000 : ℝ) ^ (4 / 5 : ℝ) < 23500 := by
    refine lt_of_pow_lt_pow_left₀ 5 (by norm_num) ?_
    rw [h5]; norm_num
  have hle : Re ^ (4 / 5 : ℝ) ≤ (290000 : ℝ) ^ (4 / 5 : ℝ) := Real.rpow_le_rpow hRe.le hR (by norm_num)
  have hm : 0 < k.mag siR := by
    simp only [MultiV.mag, mag]
    exact mul_pos hkv (div_pos (lsize_pos siR_pos _) (lsize_pos siR_pos _))
  have hLm : 0 < L.mag siR := mul_pos h0 (Real.rpow_pos_of_pos (siR_pos _) _)
  have hP : 0 < Pr ^ (1 / 3 : ℝ) := Real.rpow_pos_of_pos hPr _
  have hneg : 37 / 1000 * Re ^ (4 / 5 : ℝ) - 871 < 0 := by linarith
  refine div_neg_of_neg_of_pos ?_ hLm
  refine mul_neg_of_neg_of_pos (mul_neg_of_neg_of_pos (mul_neg_of_neg_of_pos hneg hP) hpsi) hm

example : (⟨.multi, 1, [⟨c!"BTU", 1⟩], [⟨c!"hr", 1⟩, ⟨c!"ft", 1⟩, ⟨c!"F", 1⟩]⟩ : MultiV ℝ).Genuine ∧ WellPrefixed c!"ft" := by
  decide

end Verif
