import Verif.Props.AnyPrefix
import Verif.Props.Transient
import Verif.Props.Unique
import Verif.Props.Release

/-!
# The physical claims in any units

C45, C46, C87 and C92 for arguments in any known units: what the functions return has the magnitude the claim says, for every
coherent choice of the sizes of the units.  `Prefixed` arguments may also carry SI prefixes, `Plain` ones may not.
-/

namespace Verif

theorem between_of_fraction {a b e : ℝ} (h0 : 0 ≤ e) (h1 : e ≤ 1) : min b a ≤ a - (a - b) * e ∧ a - (a - b) * e ≤ max b a := by
  rcases le_total b a with h | h
  · rw [min_eq_left h, max_eq_right h]; constructor <;> nlinarith
  · rw [min_eq_right h, max_eq_left h]; constructor <;> nlinarith

section
open PKind

section
variable {Tf To h A rho cp V t t' : Val ℝ} (hf : Prefixed temperature Tf) (h0 : Prefixed temperature To) (hh : Plain htc h)
  (hA : Plain area A) (hr : Prefixed density rho) (hc : Prefixed heatCapacity cp) (hV : Plain volume V) (ht : Plain time t)
  {r : Val ℝ} (hres : lumpedParameter (.ok Tf) (.ok To) (.ok h) (.ok A) (.ok rho) (.ok cp) (.ok V) (.ok t) = .ok r)
  {ρ : Sym → ℝ} (hρ : Coherent ρ) (ph : 0 < h.magn ρ) (pA : 0 < A.magn ρ) (pr : 0 < rho.magn ρ) (pc : 0 < cp.magn ρ)
  (pV : 0 < V.magn ρ)
include hf h0 hh hA hr hc hV ht hres hρ ph pA pr pc pV

/-- `lumped_parameter` in any units: between the initial and the fluid temperature. -/
theorem C45_between_any_units (pt : 0 ≤ t.magn ρ) :
    ∃ T, HasMag ρ r T ∧ min (To.magn ρ) (Tf.magn ρ) ≤ T ∧ T ≤ max (To.magn ρ) (Tf.magn ρ) := by
  refine ⟨_, (C86_lumped hf h0 hh hA hr hc hV ht r hres).2 ρ hρ, ?_⟩
  refine between_of_fraction (Real.exp_pos _).le ?_
  rw [Real.exp_le_one_iff]
  apply div_nonpos_of_nonpos_of_nonneg <;> [skip; positivity]
  have : 0 ≤ h.magn ρ * A.magn ρ * t.magn ρ := by positivity
  linarith

/-- Later results are closer to the fluid temperature. -/
theorem C45_approach_any_units (ht' : Plain time t') {r' : Val ℝ}
    (hres' : lumpedParameter (.ok Tf) (.ok To) (.ok h) (.ok A) (.ok rho) (.ok cp) (.ok V) (.ok t') = .ok r')
    (htt : t.magn ρ < t'.magn ρ) (hne : Tf.magn ρ ≠ To.magn ρ) :
    ∃ T T', HasMag ρ r T ∧ HasMag ρ r' T' ∧ |T' - Tf.magn ρ| < |T - Tf.magn ρ| := by
  refine ⟨_, _, (C86_lumped hf h0 hh hA hr hc hV ht r hres).2 ρ hρ, (C86_lumped hf h0 hh hA hr hc hV ht' r' hres').2 ρ hρ, ?_⟩
  have h0 : 0 < |Tf.magn ρ - To.magn ρ| := abs_pos.2 (sub_ne_zero.2 hne)
  have key : ∀ E : ℝ, 0 < E →
      |Tf.magn ρ - (Tf.magn ρ - To.magn ρ) * E - Tf.magn ρ| = |Tf.magn ρ - To.magn ρ| * E := by
    intro E hE
    rw [show Tf.magn ρ - (Tf.magn ρ - To.magn ρ) * E - Tf.magn ρ = -((Tf.magn ρ - To.magn ρ) * E) by ring, abs_neg, abs_mul,
      abs_of_pos hE]
  rw [key _ (Real.exp_pos _), key _ (Real.exp_pos _)]
  apply mul_lt_mul_of_pos_left _ h0
  rw [Real.exp_lt_exp]
  apply div_lt_div_of_pos_right _ (by positivity)
  have := mul_lt_mul_of_pos_left htt (mul_pos ph pA)
  linarith

end

section
variable {Ts To z z' t rho cp k : Val ℝ} (hs : Prefixed temperature Ts) (h0 : Prefixed temperature To) (hz : Plain length z)
  (ht : Plain time t) (hr : Prefixed density rho) (hc : Prefixed heatCapacity cp) (hk : Prefixed conductivity k)
  {r : Val ℝ} (hres : semiInfiniteSlabConduction (.ok Ts) (.ok To) (.ok z) (.ok t) (.ok rho) (.ok cp) (.ok k) = .ok r)
  {ρ : Sym → ℝ} (hρ : Coherent ρ)
include hs h0 hz ht hr hc hk hres hρ

/-- `semi_infinite_slab_conduction` in any units: between surface and initial temperature. -/
theorem C46_conduction_between_any_units (pz : 0 ≤ z.magn ρ) :
    ∃ T, HasMag ρ r T ∧ min (To.magn ρ) (Ts.magn ρ) ≤ T ∧ T ≤ max (To.magn ρ) (Ts.magn ρ) :=
  ⟨_, (C86_semi_infinite_slab hs h0 hz ht hr hc hk r hres).2 ρ hρ,
    between_of_fraction (erf_nonneg (div_nonneg pz (Real.sqrt_nonneg _))) (erf_le_one _)⟩

/-- Deeper results are closer to the initial temperature. -/
theorem C46_conduction_depth_any_units (hz' : Plain length z') {r' : Val ℝ}
    (hres' : semiInfiniteSlabConduction (.ok Ts) (.ok To) (.ok z') (.ok t) (.ok rho) (.ok cp) (.ok k) = .ok r')
    (pt : 0 < t.magn ρ) (pr : 0 < rho.magn ρ) (pc : 0 < cp.magn ρ) (pk : 0 < k.magn ρ) (hzz : z.magn ρ < z'.magn ρ)
    (hne : Ts.magn ρ ≠ To.magn ρ) :
    ∃ T T', HasMag ρ r T ∧ HasMag ρ r' T' ∧ |T' - To.magn ρ| < |T - To.magn ρ| := by
  refine ⟨_, _, (C86_semi_infinite_slab hs h0 hz ht hr hc hk r hres).2 ρ hρ,
    (C86_semi_infinite_slab hs h0 hz' ht hr hc hk r' hres').2 ρ hρ, ?_⟩
  have hsq : 0 < Real.sqrt (4 * (k.magn ρ / (rho.magn ρ * cp.magn ρ)) * t.magn ρ) := Real.sqrt_pos.2 (by positivity)
  have hlt := erf_strictMono (div_lt_div_of_pos_right hzz hsq)
  have h0 : 0 < |Ts.magn ρ - To.magn ρ| := abs_pos.2 (sub_ne_zero.2 hne)
  have key : ∀ x : ℝ, |Ts.magn ρ - (Ts.magn ρ - To.magn ρ) * erf x - To.magn ρ| = |Ts.magn ρ - To.magn ρ| * (1 - erf x) := by
    intro x
    rw [show Ts.magn ρ - (Ts.magn ρ - To.magn ρ) * erf x - To.magn ρ = (Ts.magn ρ - To.magn ρ) * (1 - erf x) by ring, abs_mul,
      abs_of_pos (sub_pos.2 (erf_lt_one x))]
  rw [key, key]
  exact mul_lt_mul_of_pos_left (by linarith) h0

/-- `semi_infinite_slab_conduction` in any units returns the value of the only solution. -/
theorem C87_semi_infinite_conduction_any_units (pz : 0 ≤ z.magn ρ) (pt : 0 < t.magn ρ) (pr : 0 < rho.magn ρ)
    (pc : 0 < cp.magn ρ) (pk : 0 < k.magn ρ) (u : ℝ → ℝ → ℝ)
    (hu : HalfSpaceHistory (k.magn ρ / (rho.magn ρ * cp.magn ρ)) (Ts.magn ρ) (To.magn ρ) u) :
    HasMag ρ r (u (z.magn ρ) (t.magn ρ)) := by
  have hκ : 0 < k.magn ρ / (rho.magn ρ * cp.magn ρ) := by positivity
  rw [halfSpace_unique hκ hu (halfField_history hκ _ _) _ pz _ pt]
  exact (C86_semi_infinite_slab hs h0 hz ht hr hc hk r hres).2 ρ hρ

end

section
variable {cs c0 z z' D t : Val ℝ} (hcs : Prefixed density cs) (hc0 : Prefixed density c0) (hz : Plain length z)
  (hD : Plain diffusivity D) (ht : Plain time t)
  {r : Val ℝ} (hres : semiInfiniteSlabDiffusion (.ok cs) (.ok c0) (.ok z) (.ok D) (.ok t) = .ok r) {ρ : Sym → ℝ} (hρ : Coherent ρ)
include hcs hc0 hz hD ht hres hρ

/-- `semi_infinite_slab_diffusion` in any units: between surface and initial concentration. -/
theorem C46_diffusion_between_any_units (pz : 0 ≤ z.magn ρ) :
    ∃ C, HasMag ρ r C ∧ min (c0.magn ρ) (cs.magn ρ) ≤ C ∧ C ≤ max (c0.magn ρ) (cs.magn ρ) :=
  ⟨_, (C86_semi_infinite_diffusion hcs hc0 hz hD ht r hres).2 ρ hρ,
    between_of_fraction (erf_nonneg (div_nonneg pz (Real.sqrt_nonneg _))) (erf_le_one _)⟩

/-- Deeper results are closer to the initial concentration. -/
theorem C46_diffusion_depth_any_units (hz' : Plain length z') {r' : Val ℝ}
    (hres' : semiInfiniteSlabDiffusion (.ok cs) (.ok c0) (.ok z') (.ok D) (.ok t) = .ok r') (pD : 0 < D.magn ρ)
    (pt : 0 < t.magn ρ) (hzz : z.magn ρ < z'.magn ρ) (hne : cs.magn ρ ≠ c0.magn ρ) :
    ∃ C C', HasMag ρ r C ∧ HasMag ρ r' C' ∧ |C' - c0.magn ρ| < |C - c0.magn ρ| := by
  refine ⟨_, _, (C86_semi_infinite_diffusion hcs hc0 hz hD ht r hres).2 ρ hρ,
    (C86_semi_infinite_diffusion hcs hc0 hz' hD ht r' hres').2 ρ hρ, ?_⟩
  have hsq : 0 < Real.sqrt (4 * D.magn ρ * t.magn ρ) := Real.sqrt_pos.2 (by positivity)
  have hlt := erf_strictMono (div_lt_div_of_pos_right hzz hsq)
  have h0 : 0 < |cs.magn ρ - c0.magn ρ| := abs_pos.2 (sub_ne_zero.2 hne)
  have key : ∀ x : ℝ, |cs.magn ρ - (cs.magn ρ - c0.magn ρ) * erf x - c0.magn ρ| = |cs.magn ρ - c0.magn ρ| * (1 - erf x) := by
    intro x
    rw [show cs.magn ρ - (cs.magn ρ - c0.magn ρ) * erf x - c0.magn ρ = (cs.magn ρ - c0.magn ρ) * (1 - erf x) by ring, abs_mul,
      abs_of_pos (sub_pos.2 (erf_lt_one x))]
  rw [key, key]
  exact mul_lt_mul_of_pos_left (by linarith) h0

/-- `semi_infinite_slab_diffusion` in any units returns the value of the only solution. -/
theorem C87_semi_infinite_diffusion_any_units (pz : 0 ≤ z.magn ρ) (pt : 0 < t.magn ρ) (pD : 0 < D.magn ρ)
    (u : ℝ → ℝ → ℝ) (hu : HalfSpaceHistory (D.magn ρ) (cs.magn ρ) (c0.magn ρ) u) :
    HasMag ρ r (u (z.magn ρ) (t.magn ρ)) := by
  rw [halfSpace_unique pD hu (halfField_history pD _ _) _ pz _ pt]
  exact (C86_semi_infinite_diffusion hcs hc0 hz hD ht r hres).2 ρ hρ

end

end

/-! ## Pulses -/

section
open Kind

variable {m A L x D t : Val ℝ} (hm : mass.Has m) (hx : length.Has x) (hD : diffusivity.Has D) (ht : time.Has t)
  {r : Val ℝ} {ρ : Sym → ℝ} (hρ : Coherent ρ) (pD : 0 < D.magn ρ) (pt : 0 < t.magn ρ)
include hm hx hD ht hρ pD pt

/-- `one_d_pulse_decay` in any units returns the value of the only solution at the given distance. -/
theorem C92_one_d_any_units (hA : area.Has A) (hres : oneDPulse (.ok m) (.ok A) (.ok x) (.ok D) (.ok t) = .ok r)
    (u : Space 1 → ℝ → ℝ) (hu : PointRelease (D.magn ρ) (m.magn ρ / A.magn ρ) u) (y : Space 1) (hy : ‖y‖ = x.magn ρ) :
    HasMag ρ r (u y (t.magn ρ)) := by
  have h := (C75_one_d_pulse hm hA hx hD ht r hres).2 ρ hρ
  rw [hu.eq_kernel pD y pt, kernel, hy, ← mul_div_assoc]
  simp only [Real.sqrt_eq_rpow] at h
  simpa using h

/-- `two_d_pulse_decay` in any units. -/
theorem C92_two_d_any_units (hL : length.Has L) (hres : twoDPulse (.ok m) (.ok L) (.ok x) (.ok D) (.ok t) = .ok r)
    (u : Space 2 → ℝ → ℝ) (hu : PointRelease (D.magn ρ) (m.magn ρ / L.magn ρ) u) (y : Space 2) (hy : ‖y‖ = x.magn ρ) :
    HasMag ρ r (u y (t.magn ρ)) := by
  have h := (C75_two_d_pulse hm hL hx hD ht r hres).2 ρ hρ
  rw [hu.eq_kernel pD y pt, kernel, hy, ← mul_div_assoc]
  simpa using h

/-- `three_d_pulse_decay` in any units, at a wall. -/
theorem C92_hemisphere_any_units (hres : threeDPulse (.ok m) (.ok x) (.ok D) (.ok t) c!"hemisphere" = .ok r)
    (i : Fin 3) (u : Space 3 → ℝ → ℝ) (hu : CornerRelease {i} (D.magn ρ) (m.magn ρ) u) (y : Space 3) (hi : 0 ≤ y i)
    (hy : ‖y‖ = x.magn ρ) : HasMag ρ r (u y (t.magn ρ)) := by
  have h := (C75_three_d_pulse_hemisphere hm hx hD ht r hres).2 ρ hρ
  rw [hu.eq_kernel pD y (by simpa [room] using hi) _ pt, kernel, hy, ← mul_div_assoc]
  simpa using h

/-- `three_d_pulse_decay` in any units, in a corner. -/
theorem C92_cube_any_units (hres : threeDPulse (.ok m) (.ok x) (.ok D) (.ok t) c!"cube" = .ok r)
    (u : Space 3 → ℝ → ℝ) (hu : CornerRelease Finset.univ (D.magn ρ) (m.magn ρ) u) (y : Space 3) (hi : ∀ i, 0 ≤ y i)
    (hy : ‖y‖ = x.magn ρ) : HasMag ρ r (u y (t.magn ρ)) := by
  have h := (C75_three_d_pulse_cube hm hx hD ht r hres).2 ρ hρ
  rw [hu.eq_kernel pD y (fun i _ => hi i) _ pt, kernel, hy, ← mul_div_assoc]
  norm_num at h ⊢
  exact h

end

/-- Non-vacuity: mass in pounds released on an area in square feet, looked at from some feet with a diffusion coefficient in
square feet per minute: the hypotheses hold and a result is returned. -/
example (m a x D t : ℝ) (ha : a ≠ 0) (hD : 0 < D) (ht : 0 < t) :
    Kind.mass.Has (.unit ⟨.mass, m, c!"lb", 1⟩) ∧ Kind.area.Has (.multi ⟨.multi, a, [⟨c!"ft", 2⟩], []⟩) ∧
    Kind.length.Has (.unit ⟨.length, x, c!"ft", 1⟩) ∧
    Kind.diffusivity.Has (.multi ⟨.multi, D, [⟨c!"ft", 2⟩], [⟨c!"min", 1⟩]⟩) ∧
    Kind.time.Has (.unit ⟨.time, t, c!"min", 1⟩) ∧
    ∃ r, oneDPulse (.ok (.unit ⟨.mass, m, c!"lb", 1⟩)) (.ok (.multi ⟨.multi, a, [⟨c!"ft", 2⟩], []⟩))
      (.ok (.unit ⟨.length, x, c!"ft", 1⟩)) (.ok (.multi ⟨.multi, D, [⟨c!"ft", 2⟩], [⟨c!"min", 1⟩]⟩))
      (.ok (.unit ⟨.time, t, c!"min", 1⟩)) = .ok r := by
  have klb : Known c!"lb" ∧ dimOf c!"lb" = (0, 1, 0, 0, 0, 0) := by unfold Known; decide +kernel
  have kft : Known c!"ft" ∧ dimOf c!"ft" = (1, 0, 0, 0, 0, 0) := by unfold Known; decide +kernel
  have kmin : Known c!"min" ∧ dimOf c!"min" = (0, 0, 1, 0, 0, 0) := by unfold Known; decide +kernel
  have ka : (Val.multi ⟨.multi, (0 : ℝ), [⟨c!"ft", 2⟩], []⟩).dim = (2, 0, 0, 0, 0, 0) := by decide +kernel
  have kD : (Val.multi ⟨.multi, (0 : ℝ), [⟨c!"ft", 2⟩], [⟨c!"min", 1⟩]⟩).dim = (2, 0, -1, 0, 0, 0) := by decide +kernel
  refine ⟨⟨_, rfl, ⟨m, c!"lb", 1, rfl⟩, klb.1, rfl, klb.2⟩,
    ⟨⟨by simp only [KnownList, Known]; decide +kernel, by simp only [KnownList, Known]; decide +kernel⟩, ka⟩,
    ⟨_, rfl, ⟨x, c!"ft", 1, rfl⟩, kft.1, rfl, kft.2⟩,
    ⟨⟨by simp only [KnownList, Known]; decide +kernel, by simp only [KnownList, Known]; decide +kernel⟩, kD⟩,
    ⟨_, rfl, ⟨t, c!"min", 1, rfl⟩, kmin.1, rfl, kmin.2⟩, ?_⟩
  have hp : 0 < t * (4 * Real.pi * D) := by have := Real.pi_pos; positivity
  have hpn : (t * (4 * Real.pi * D)) ^ ((1 / 2 : ℚ) : ℝ) ≠ 0 := (Real.rpow_pos_of_pos hp _).ne'
  units_eval [oneDPulse, hD.ne', ht.ne', ha, pow_real_pos hp, hpn]
  exact ⟨_, rfl⟩

end Verif
