import Verif.Props.CurvedWalls
import Verif.Props.AnyUnits
import Verif.Lemmas.ConvertMag

/-!
# C111 in any units

The comparison of curved and flat walls for arguments in any known units without prefix, every argument in its own unit.
-/

namespace Verif

open Kind

section
variable {k T1 T2 L r1 r2 Ai Ao Am x D c1 c2 ri r ro : Val ℝ} {ρ : Sym → ℝ} (hρ : Coherent ρ)
  (hk : conductivity.Has k) (h1 : temperature.Has T1) (h2 : temperature.Has T2) (hL : length.Has L) (hr1 : length.Has r1)
  (hr2 : length.Has r2) (hAi : area.Has Ai) (hAo : area.Has Ao) (hAm : area.Has Am) (hx : length.Has x)
  (hD : diffusivity.Has D) (hc1 : density.Has c1) (hc2 : density.Has c2)
  (pL : 0 < L.magn ρ) (p1 : 0 < r1.magn ρ) (pr : r1.magn ρ < r2.magn ρ) (ex : x.magn ρ = r2.magn ρ - r1.magn ρ)

include hρ hk h1 h2 hL hr1 hr2 hAi hAo hx pL p1 pr ex in
/-- The heat through the wall of a pipe lies strictly between the flat walls with the inner and the outer area. -/
theorem C111_pipe_heat_any_units (pk : 0 < k.magn ρ) (pT : T2.magn ρ < T1.magn ρ)
    (ei : Ai.magn ρ = 2 * Real.pi * r1.magn ρ * L.magn ρ) (eo : Ao.magn ρ = 2 * Real.pi * r2.magn ρ * L.magn ρ)
    (hi : planarHeat [k, T1, T2, Ai, x] [] = .ok ri)
    (h : pipeHeat (.ok k) (.ok T1) (.ok T2) (.ok L) (.ok r2) (.ok r1) = .ok r)
    (ho : planarHeat [k, T1, T2, Ao, x] [] = .ok ro) :
    ∃ qi q qo, HasMag ρ ri qi ∧ HasMag ρ r q ∧ HasMag ρ ro qo ∧ 0 < qi ∧ qi < q ∧ q < qo := by
  refine ⟨_, _, _, (C75_planar_heat hk h1 h2 hAi hx ri hi).2 ρ hρ, (C75_pipe_heat hk h1 h2 hL hr2 hr1 r h).2 ρ hρ,
    (C75_planar_heat hk h1 h2 hAo hx ro ho).2 ρ hρ, ?_⟩
  beta_reduce
  have hd : 0 < r2.magn ρ - r1.magn ρ := sub_pos.2 pr
  have hc : 0 < k.magn ρ * (T1.magn ρ - T2.magn ρ) := mul_pos pk (sub_pos.2 pT)
  obtain ⟨a, b⟩ := pipe_between p1 pr pL hc
  have e1 (R : ℝ) : -k.magn ρ * (2 * Real.pi * R * L.magn ρ) * ((T2.magn ρ - T1.magn ρ) / (r2.magn ρ - r1.magn ρ)) =
      k.magn ρ * (T1.magn ρ - T2.magn ρ) * (2 * Real.pi * R * L.magn ρ) / (r2.magn ρ - r1.magn ρ) := by ring
  have e2 : -2 * Real.pi * L.magn ρ * k.magn ρ * ((T2.magn ρ - T1.magn ρ) / Real.log (r2.magn ρ / r1.magn ρ)) =
      2 * Real.pi * L.magn ρ * (k.magn ρ * (T1.magn ρ - T2.magn ρ)) / Real.log (r2.magn ρ / r1.magn ρ) := by ring
  rw [ei, eo, ex, e1, e1, e2]
  refine ⟨?_, a, b⟩
  have := Real.pi_pos
  positivity

include hρ hk h1 h2 hL hr1 hr2 hAm hx pL p1 pr ex in
/-- It is the heat through a flat wall with the logarithmic mean of the two areas. -/
theorem C111_pipe_heat_log_mean_any_units
    (em : Am.magn ρ = (2 * Real.pi * r2.magn ρ * L.magn ρ - 2 * Real.pi * r1.magn ρ * L.magn ρ) /
      Real.log (2 * Real.pi * r2.magn ρ * L.magn ρ / (2 * Real.pi * r1.magn ρ * L.magn ρ)))
    (h : pipeHeat (.ok k) (.ok T1) (.ok T2) (.ok L) (.ok r2) (.ok r1) = .ok r)
    (hm : planarHeat [k, T1, T2, Am, x] [] = .ok ro) : ∃ q, HasMag ρ r q ∧ HasMag ρ ro q := by
  refine ⟨_, (C75_pipe_heat hk h1 h2 hL hr2 hr1 r h).2 ρ hρ, ((C75_planar_heat hk h1 h2 hAm hx ro hm).2 ρ hρ).of_eq ?_⟩
  have hd : r2.magn ρ - r1.magn ρ ≠ 0 := (sub_pos.2 pr).ne'
  have hlog : Real.log (r2.magn ρ / r1.magn ρ) ≠ 0 := (Real.log_pos ((one_lt_div p1).2 pr)).ne'
  have hp := Real.pi_ne_zero
  have e : 2 * Real.pi * r2.magn ρ * L.magn ρ / (2 * Real.pi * r1.magn ρ * L.magn ρ) = r2.magn ρ / r1.magn ρ := by
    have := p1.ne'
    have := pL.ne'
    field_simp
  beta_reduce
  rw [em, ex, e]
  field_simp

include hρ hD hL hr1 hr2 hAi hAo hx hc1 hc2 pL p1 pr ex in
/-- Diffusion through the wall of a pipe lies strictly between the flat walls with the inner and the outer area. -/
theorem C111_pipe_mass_any_units (pD : 0 < D.magn ρ) (pc : c2.magn ρ < c1.magn ρ)
    (ei : Ai.magn ρ = 2 * Real.pi * r1.magn ρ * L.magn ρ) (eo : Ao.magn ρ = 2 * Real.pi * r2.magn ρ * L.magn ρ)
    (hi : planarMassTransfer (.ok D) (.ok Ai) (.ok c2) (.ok c1) (.ok x) = .ok ri)
    (h : pipeMassTransfer (.ok D) (.ok r2) (.ok r1) (.ok c2) (.ok c1) (.ok L) = .ok r)
    (ho : planarMassTransfer (.ok D) (.ok Ao) (.ok c2) (.ok c1) (.ok x) = .ok ro) :
    ∃ qi q qo, HasMag ρ ri qi ∧ HasMag ρ r q ∧ HasMag ρ ro qo ∧ 0 < qi ∧ qi < q ∧ q < qo := by
  refine ⟨_, _, _, (C75_planar_mass_transfer hD hAi hc2 hc1 hx ri hi).2 ρ hρ,
    (C75_pipe_mass_transfer hD hr2 hr1 hc2 hc1 hL r h).2 ρ hρ, (C75_planar_mass_transfer hD hAo hc2 hc1 hx ro ho).2 ρ hρ, ?_⟩
  beta_reduce
  have hd : 0 < r2.magn ρ - r1.magn ρ := sub_pos.2 pr
  have hc : 0 < D.magn ρ * (c1.magn ρ - c2.magn ρ) := mul_pos pD (sub_pos.2 pc)
  obtain ⟨a, b⟩ := pipe_between p1 pr pL hc
  have e1 (R : ℝ) : -D.magn ρ * (2 * Real.pi * R * L.magn ρ) * ((c2.magn ρ - c1.magn ρ) / (r2.magn ρ - r1.magn ρ)) =
      D.magn ρ * (c1.magn ρ - c2.magn ρ) * (2 * Real.pi * R * L.magn ρ) / (r2.magn ρ - r1.magn ρ) := by ring
  have e2 : -2 * Real.pi * L.magn ρ * D.magn ρ * ((c2.magn ρ - c1.magn ρ) / Real.log (r2.magn ρ / r1.magn ρ)) =
      2 * Real.pi * L.magn ρ * (D.magn ρ * (c1.magn ρ - c2.magn ρ)) / Real.log (r2.magn ρ / r1.magn ρ) := by ring
  rw [ei, eo, ex, e1, e1, e2]
  refine ⟨?_, a, b⟩
  have := Real.pi_pos
  positivity

include hρ hD hr1 hr2 hAm hx hc1 hc2 p1 pr ex in
/-- Diffusion through a spherical shell is the flow through a flat wall with the geometric mean of the two areas. -/
theorem C111_sphere_mass_any_units
    (em : Am.magn ρ = √(4 * Real.pi * r1.magn ρ ^ 2 * (4 * Real.pi * r2.magn ρ ^ 2)))
    (h : sphereMassTransfer (.ok D) (.ok r2) (.ok r1) (.ok c2) (.ok c1) = .ok r)
    (hm : planarMassTransfer (.ok D) (.ok Am) (.ok c2) (.ok c1) (.ok x) = .ok ro) : ∃ q, HasMag ρ r q ∧ HasMag ρ ro q := by
  refine ⟨_, (C75_sphere_mass_transfer hD hr2 hr1 hc2 hc1 r h).2 ρ hρ,
    ((C75_planar_mass_transfer hD hAm hc2 hc1 hx ro hm).2 ρ hρ).of_eq ?_⟩
  have p2 : 0 < r2.magn ρ := p1.trans pr
  have hp := Real.pi_pos
  have e : √(4 * Real.pi * r1.magn ρ ^ 2 * (4 * Real.pi * r2.magn ρ ^ 2)) = 4 * Real.pi * r1.magn ρ * r2.magn ρ := by
    rw [show 4 * Real.pi * r1.magn ρ ^ 2 * (4 * Real.pi * r2.magn ρ ^ 2) = (4 * Real.pi * r1.magn ρ * r2.magn ρ) ^ 2 by ring,
      Real.sqrt_sq (by positivity)]
  beta_reduce
  rw [em, ex, e]
  ring

end

/-- Non-vacuity: radii and length in feet and inches, the areas in square metres as far as their size goes. -/
example : length.Has (.unit ⟨.length, (1 : ℝ), c!"ft", 1⟩) ∧ length.Has (.unit ⟨.length, (18 : ℝ), c!"in", 1⟩) ∧
    0 < (Val.unit ⟨.length, (1 : ℝ), c!"ft", 1⟩).magn siR ∧
    (Val.unit ⟨.length, (1 : ℝ), c!"ft", 1⟩).magn siR < (Val.unit ⟨.length, (18 : ℝ), c!"in", 1⟩).magn siR := by
  have kft : Known c!"ft" ∧ dimOf c!"ft" = (1, 0, 0, 0, 0, 0) := by unfold Known; decide +kernel
  have kin : Known c!"in" ∧ dimOf c!"in" = (1, 0, 0, 0, 0, 0) := by unfold Known; decide +kernel
  have hf : 0 < siSize c!"ft" ∧ siSize c!"ft" * 1 < siSize c!"in" * 18 := by decide +kernel
  have h1 : (0 : ℝ) < (siSize c!"ft" : ℝ) := by exact_mod_cast hf.1
  have h2 : (siSize c!"ft" : ℝ) * 1 < (siSize c!"in" : ℝ) * 18 := by exact_mod_cast hf.2
  refine ⟨⟨_, rfl, ⟨1, c!"ft", 1, rfl⟩, kft.1, rfl, kft.2⟩, ⟨_, rfl, ⟨18, c!"in", 1, rfl⟩, kin.1, rfl, kin.2⟩, ?_, ?_⟩ <;>
    simp only [Val.magn, UnitV.mag, siR, Rat.cast_one, Real.rpow_one] <;> linarith

end Verif
