import Verif.Props.AnyUnitsSeries
import Verif.Props.Exchangers
import Verif.Props.Transient

/-!
# C44 and C47 in any units

The mean temperature difference of a countercurrent exchanger and the heat taken up by a slab, for arguments in any known
units without prefix.
-/

namespace Verif

open Kind

/-- Countercurrent flow: the result lies strictly between the two end differences, whatever the units. -/
theorem C44_counter_between_any_units {a b c e r : Val ℝ} (ha : temperature.Has a) (hb : temperature.Has b)
    (hc : temperature.Has c) (he : temperature.Has e) (hr : deltatLogmean (.ok a) (.ok b) (.ok c) (.ok e) = .ok r)
    {ρ : Sym → ℝ} (hρ : Coherent ρ) (p0 : 0 < a.magn ρ - e.magn ρ) (p1 : 0 < b.magn ρ - c.magn ρ)
    (hne : a.magn ρ - e.magn ρ ≠ b.magn ρ - c.magn ρ) :
    ∃ T, HasMag ρ r T ∧ min (a.magn ρ - e.magn ρ) (b.magn ρ - c.magn ρ) < T ∧
      T < max (a.magn ρ - e.magn ρ) (b.magn ρ - c.magn ρ) :=
  ⟨_, (C75_logmean ha hb hc he r hr).2 ρ hρ, logMean_between p0 p1 hne⟩

section
variable {s rho cp Ts To k t A t' r r' : Val ℝ} (hs : length.Has s) (hrho : density.Has rho) (hcp : heatCapacity.Has cp)
  (hTs : temperature.Has Ts) (hTo : temperature.Has To) (hk : conductivity.Has k) (ht : time.Has t) (hA : area.Has A)
  {ρ : Sym → ℝ} (hρ : Coherent ρ) (ps : 0 < s.magn ρ) (pr : 0 < rho.magn ρ) (pc : 0 < cp.magn ρ) (pk : 0 < k.magn ρ)
  (pA : 0 ≤ A.magn ρ) (pt : 0 ≤ t.magn ρ) (pT : To.magn ρ ≤ Ts.magn ρ)

include hs hrho hcp hTs hTo hk ht hA hρ in
/-- The magnitude of the heat as the maximal heat times the fraction of the series. -/
theorem C47_value_any_units (n : ℤ)
    (hr : finiteSlabTotalHeat (.ok s) (.ok rho) (.ok cp) (.ok Ts) (.ok To) (.ok k) (.ok t) (.ok A) n = .ok r) :
    HasMag ρ r (s.magn ρ * rho.magn ρ * cp.magn ρ * (Ts.magn ρ - To.magn ρ) * A.magn ρ *
      slabFraction (fourier (s.magn ρ) (rho.magn ρ) (cp.magn ρ) (k.magn ρ) (t.magn ρ)) n.toNat) := by
  have h := (C75_finite_slab_total_heat hTs hTo hs hk hrho hcp ht hA n r hr).2 ρ hρ
  beta_reduce at h
  convert h using 1
  rw [slabFraction, fourier]
  ring

include hs hrho hcp hTs hTo hk ht hA hρ ps pr pc pk pA pt pT

/-- The heat is never negative and never exceeds what brings the slab to the surface temperature. -/
theorem C47_bounded_any_units (n : ℤ)
    (hr : finiteSlabTotalHeat (.ok s) (.ok rho) (.ok cp) (.ok Ts) (.ok To) (.ok k) (.ok t) (.ok A) n = .ok r) :
    ∃ q, HasMag ρ r q ∧ 0 ≤ q ∧ q ≤ s.magn ρ * rho.magn ρ * cp.magn ρ * (Ts.magn ρ - To.magn ρ) * A.magn ρ := by
  have hm : 0 ≤ s.magn ρ * rho.magn ρ * cp.magn ρ * (Ts.magn ρ - To.magn ρ) * A.magn ρ := by
    have := sub_nonneg.2 pT
    positivity
  exact ⟨_, C47_value_any_units hs hrho hcp hTs hTo hk ht hA hρ n hr,
    mul_nonneg hm (slabFraction_nonneg (fourier_nonneg ps pr pc pk pt) _), mul_le_of_le_one_right hm (slabFraction_le_one _ _)⟩

/-- The heat does not decrease with time nor with the number of terms; the two times may be in different units. -/
theorem C47_monotone_any_units (ht' : time.Has t') (htt : t.magn ρ ≤ t'.magn ρ) {n n' : ℤ} (hn : n ≤ n')
    (hr : finiteSlabTotalHeat (.ok s) (.ok rho) (.ok cp) (.ok Ts) (.ok To) (.ok k) (.ok t) (.ok A) n = .ok r)
    (hr' : finiteSlabTotalHeat (.ok s) (.ok rho) (.ok cp) (.ok Ts) (.ok To) (.ok k) (.ok t') (.ok A) n' = .ok r') :
    ∃ q q', HasMag ρ r q ∧ HasMag ρ r' q' ∧ q ≤ q' := by
  have hm : 0 ≤ s.magn ρ * rho.magn ρ * cp.magn ρ * (Ts.magn ρ - To.magn ρ) * A.magn ρ := by
    have := sub_nonneg.2 pT
    positivity
  refine ⟨_, _, C47_value_any_units hs hrho hcp hTs hTo hk ht hA hρ n hr,
    C47_value_any_units hs hrho hcp hTs hTo hk ht' hA hρ n' hr', mul_le_mul_of_nonneg_left ?_ hm⟩
  refine (slabFraction_mono_count (fourier_nonneg ps pr pc pk pt) (Int.toNat_le_toNat hn)).trans
    (slabFraction_mono_time ?_ _)
  simp only [fourier]
  gcongr

end

/-- Non-vacuity: an exchanger with temperatures in degrees Fahrenheit. -/
example : ∃ r, deltatLogmean (qU .temperature 212 c!"F") (qU .temperature 150 c!"F") (qU .temperature 60 c!"F")
      (qU .temperature 100 c!"F") = .ok r ∧ temperature.Has (.unit ⟨.temperature, 212, c!"F", 1⟩) :=
  ⟨_, C44_counter_value c!"F" 212 150 60 100 (by norm_num) (by norm_num) (by norm_num),
    ⟨_, rfl, ⟨212, c!"F", 1, rfl⟩, by unfold Known; decide +kernel, rfl, by decide +kernel⟩⟩

end Verif
