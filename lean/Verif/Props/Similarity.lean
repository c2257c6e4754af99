import Verif.Props.AnyUnitsMore
import Verif.Props.AnyUnitsResults
import Verif.Props.Conduction
import Verif.Props.Diffusion

/-!
# C113: scaling, symmetry and superposition

Two calls of a formula with different arguments, all in any known units without prefix.  When the two set-ups are similar (the
dimensionless numbers of the arguments agree) the dimensionless results agree: an experiment on a small model tells what happens
in the large apparatus, and an experiment with heat tells what happens with mass.  Exchanging the two sides of a wall reverses
the flow, and the results for mixed end states are mixtures of results.
-/

namespace Verif

open Kind

/-- Two results `r`, `r'` are the same fraction of the way from their surface state `s` to their initial state `o`. -/
def SameFraction (ρ : Sym → ℝ) (r s o r' s' o' : Val ℝ) : Prop :=
  ∃ T T', HasMag ρ r T ∧ HasMag ρ r' T' ∧
    (s.magn ρ - T) * (s'.magn ρ - o'.magn ρ) = (s'.magn ρ - T') * (s.magn ρ - o.magn ρ)

/-- The result `r''` is the mixture of `r` and `r'` in the proportion `w` to `1 - w`. -/
def Mixture (ρ : Sym → ℝ) (w : ℝ) (r r' r'' : Val ℝ) : Prop :=
  ∃ T T' T'', HasMag ρ r T ∧ HasMag ρ r' T' ∧ HasMag ρ r'' T'' ∧ T'' = w * T + (1 - w) * T'

/-- The second result is the negative of the first. -/
def Reversed (ρ : Sym → ℝ) (r r' : Val ℝ) : Prop := ∃ q q', HasMag ρ r q ∧ HasMag ρ r' q' ∧ q' = -q

theorem sameFraction_of {ρ : Sym → ℝ} {r s o r' s' o' : Val ℝ} {e e' : ℝ}
    (h : HasMag ρ r (s.magn ρ - (s.magn ρ - o.magn ρ) * e)) (h' : HasMag ρ r' (s'.magn ρ - (s'.magn ρ - o'.magn ρ) * e'))
    (he : e = e') : SameFraction ρ r s o r' s' o' :=
  ⟨_, _, h, h', by rw [he]; ring⟩

/-- Equal similarity variables. -/
theorem similar {z a z' a' : ℝ} (hz : 0 ≤ z) (hz' : 0 ≤ z') (ha : 0 < a) (ha' : 0 < a') (h : z ^ 2 * a' = z' ^ 2 * a) :
    z / Real.sqrt (4 * a) = z' / Real.sqrt (4 * a') := by
  rw [← Real.sqrt_sq hz, ← Real.sqrt_sq hz', ← Real.sqrt_div (sq_nonneg _), ← Real.sqrt_div (sq_nonneg _)]
  congr 1
  rw [div_eq_div_iff (by positivity) (by positivity)]
  linarith

/-! ## Similar set-ups -/

section
variable {Ts To z t rho cp k r Ts' To' z' t' rho' cp' k' r' Cs Co D rC Cs' Co' D' rC' : Val ℝ} {ρ : Sym → ℝ} (hρ : Coherent ρ)
include hρ

/-- `semi_infinite_slab_conduction`: two solids, of any materials, at depths and times with the same `z² / (α t)`, have gone the
same fraction of the way. -/
theorem C113_half_space_heat (hs : temperature.Has Ts) (h0 : temperature.Has To) (hz : length.Has z) (ht : time.Has t)
    (hr : density.Has rho) (hc : heatCapacity.Has cp) (hk : conductivity.Has k)
    (hres : semiInfiniteSlabConduction (.ok Ts) (.ok To) (.ok z) (.ok t) (.ok rho) (.ok cp) (.ok k) = .ok r)
    (hs' : temperature.Has Ts') (h0' : temperature.Has To') (hz' : length.Has z') (ht' : time.Has t')
    (hr' : density.Has rho') (hc' : heatCapacity.Has cp') (hk' : conductivity.Has k')
    (hres' : semiInfiniteSlabConduction (.ok Ts') (.ok To') (.ok z') (.ok t') (.ok rho') (.ok cp') (.ok k') = .ok r')
    (pz : 0 ≤ z.magn ρ) (pz' : 0 ≤ z'.magn ρ)
    (p : 0 < k.magn ρ / (rho.magn ρ * cp.magn ρ) * t.magn ρ) (p' : 0 < k'.magn ρ / (rho'.magn ρ * cp'.magn ρ) * t'.magn ρ)
    (hsim : z.magn ρ ^ 2 * (k'.magn ρ / (rho'.magn ρ * cp'.magn ρ) * t'.magn ρ) =
      z'.magn ρ ^ 2 * (k.magn ρ / (rho.magn ρ * cp.magn ρ) * t.magn ρ)) :
    SameFraction ρ r Ts To r' Ts' To' := by
  refine sameFraction_of ((C75_semi_infinite_slab hs h0 hz ht hr hc hk r hres).2 ρ hρ)
    ((C75_semi_infinite_slab hs' h0' hz' ht' hr' hc' hk' r' hres').2 ρ hρ) ?_
  rw [mul_assoc (4 : ℝ), mul_assoc (4 : ℝ), similar pz pz' p p' hsim]

/-- `semi_infinite_slab_diffusion`: the same for concentrations. -/
theorem C113_half_space_mass (hs : density.Has Cs) (h0 : density.Has Co) (hz : length.Has z) (hD : diffusivity.Has D)
    (ht : time.Has t) (hres : semiInfiniteSlabDiffusion (.ok Cs) (.ok Co) (.ok z) (.ok D) (.ok t) = .ok rC)
    (hs' : density.Has Cs') (h0' : density.Has Co') (hz' : length.Has z') (hD' : diffusivity.Has D')
    (ht' : time.Has t') (hres' : semiInfiniteSlabDiffusion (.ok Cs') (.ok Co') (.ok z') (.ok D') (.ok t') = .ok rC')
    (pz : 0 ≤ z.magn ρ) (pz' : 0 ≤ z'.magn ρ) (p : 0 < D.magn ρ * t.magn ρ) (p' : 0 < D'.magn ρ * t'.magn ρ)
    (hsim : z.magn ρ ^ 2 * (D'.magn ρ * t'.magn ρ) = z'.magn ρ ^ 2 * (D.magn ρ * t.magn ρ)) :
    SameFraction ρ rC Cs Co rC' Cs' Co' := by
  refine sameFraction_of ((C75_semi_infinite_diffusion hs h0 hz hD ht rC hres).2 ρ hρ)
    ((C75_semi_infinite_diffusion hs' h0' hz' hD' ht' rC' hres').2 ρ hρ) ?_
  rw [mul_assoc (4 : ℝ), mul_assoc (4 : ℝ), similar pz pz' p p' hsim]

/-- The analogy of heat and mass: a temperature and a concentration with the same `z² / (α t)` and `z² / (D t)`. -/
theorem C113_half_space_analogy (hs : temperature.Has Ts) (h0 : temperature.Has To) (hz : length.Has z) (ht : time.Has t)
    (hr : density.Has rho) (hc : heatCapacity.Has cp) (hk : conductivity.Has k)
    (hres : semiInfiniteSlabConduction (.ok Ts) (.ok To) (.ok z) (.ok t) (.ok rho) (.ok cp) (.ok k) = .ok r)
    (hs' : density.Has Cs') (h0' : density.Has Co') (hz' : length.Has z') (hD' : diffusivity.Has D')
    (ht' : time.Has t') (hres' : semiInfiniteSlabDiffusion (.ok Cs') (.ok Co') (.ok z') (.ok D') (.ok t') = .ok rC')
    (pz : 0 ≤ z.magn ρ) (pz' : 0 ≤ z'.magn ρ)
    (p : 0 < k.magn ρ / (rho.magn ρ * cp.magn ρ) * t.magn ρ) (p' : 0 < D'.magn ρ * t'.magn ρ)
    (hsim : z.magn ρ ^ 2 * (D'.magn ρ * t'.magn ρ) = z'.magn ρ ^ 2 * (k.magn ρ / (rho.magn ρ * cp.magn ρ) * t.magn ρ)) :
    SameFraction ρ r Ts To rC' Cs' Co' := by
  refine sameFraction_of ((C75_semi_infinite_slab hs h0 hz ht hr hc hk r hres).2 ρ hρ)
    ((C75_semi_infinite_diffusion hs' h0' hz' hD' ht' rC' hres').2 ρ hρ) ?_
  rw [mul_assoc (4 : ℝ), mul_assoc (4 : ℝ), similar pz pz' p p' hsim]

end

/-- `lumped_parameter`: two bodies with the same `h A t / (ρ c V)`. -/
theorem C113_lumped {Tf To h A rho cp V t r Tf' To' h' A' rho' cp' V' t' r' : Val ℝ} {ρ : Sym → ℝ} (hρ : Coherent ρ)
    (hf : temperature.Has Tf) (h0 : temperature.Has To) (hh : htc.Has h) (hA : area.Has A) (hr : density.Has rho)
    (hc : heatCapacity.Has cp) (hV : volume.Has V) (ht : time.Has t)
    (hres : lumpedParameter (.ok Tf) (.ok To) (.ok h) (.ok A) (.ok rho) (.ok cp) (.ok V) (.ok t) = .ok r)
    (hf' : temperature.Has Tf') (h0' : temperature.Has To') (hh' : htc.Has h') (hA' : area.Has A') (hr' : density.Has rho')
    (hc' : heatCapacity.Has cp') (hV' : volume.Has V') (ht' : time.Has t')
    (hres' : lumpedParameter (.ok Tf') (.ok To') (.ok h') (.ok A') (.ok rho') (.ok cp') (.ok V') (.ok t') = .ok r')
    (hsim : h.magn ρ * A.magn ρ * t.magn ρ / (rho.magn ρ * cp.magn ρ * V.magn ρ) =
      h'.magn ρ * A'.magn ρ * t'.magn ρ / (rho'.magn ρ * cp'.magn ρ * V'.magn ρ)) :
    SameFraction ρ r Tf To r' Tf' To' := by
  refine sameFraction_of ((C75_lumped hf h0 hh hA hr hc hV ht r hres).2 ρ hρ)
    ((C75_lumped hf' h0' hh' hA' hr' hc' hV' ht' r' hres').2 ρ hρ) ?_
  rw [neg_div, neg_div, hsim]

section
variable {Ts To x s k rho cp t A r Ts' To' x' s' k' rho' cp' t' A' r' : Val ℝ} {ρ : Sym → ℝ} (hρ : Coherent ρ)
  (hTs : temperature.Has Ts) (hTo : temperature.Has To) (hx : length.Has x) (hs : length.Has s) (hk : conductivity.Has k)
  (hrho : density.Has rho) (hcp : heatCapacity.Has cp) (ht : time.Has t) (hA : area.Has A)
  (hTs' : temperature.Has Ts') (hTo' : temperature.Has To') (hx' : length.Has x') (hs' : length.Has s')
  (hk' : conductivity.Has k') (hrho' : density.Has rho') (hcp' : heatCapacity.Has cp') (ht' : time.Has t') (hA' : area.Has A')
  (hF : fourier (s.magn ρ) (rho.magn ρ) (cp.magn ρ) (k.magn ρ) (t.magn ρ) =
    fourier (s'.magn ρ) (rho'.magn ρ) (cp'.magn ρ) (k'.magn ρ) (t'.magn ρ))
include hρ hTs hTo hs hk hrho hcp ht hTs' hTo' hs' hk' hrho' hcp' ht' hF

include hx hx' in
/-- `finite_slab_conduction`: the same relative position, the same Fourier number and the same number of terms. -/
theorem C113_slab_heat (n : ℤ)
    (hres : finiteSlabConduction (.ok Ts) (.ok To) (.ok x) (.ok s) (.ok k) (.ok rho) (.ok cp) (.ok t) n = .ok r)
    (hres' : finiteSlabConduction (.ok Ts') (.ok To') (.ok x') (.ok s') (.ok k') (.ok rho') (.ok cp') (.ok t') n = .ok r')
    (hsim : x.magn ρ / s.magn ρ = x'.magn ρ / s'.magn ρ) : SameFraction ρ r Ts To r' Ts' To' := by
  have e (m x s : ℝ) : m * Real.pi * x / (2 * s) = m * Real.pi / 2 * (x / s) := by ring
  have h := (C75_finite_slab_conduction hTs hTo hx hs hk hrho hcp ht n r hres).2 ρ hρ
  have h' := (C75_finite_slab_conduction hTs' hTo' hx' hs' hk' hrho' hcp' ht' n r' hres').2 ρ hρ
  beta_reduce at h h'
  simp only [fourier] at hF
  simp only [mul_assoc (_ - _ : ℝ), e, hsim, hF] at h h'
  exact sameFraction_of h h' rfl

include hA hA' in
/-- `finite_slab_total_heat`: at the same Fourier number the heats are in the proportion of the heats needed to bring the slabs
to the surface temperature. -/
theorem C113_slab_total_heat (n : ℤ)
    (hres : finiteSlabTotalHeat (.ok s) (.ok rho) (.ok cp) (.ok Ts) (.ok To) (.ok k) (.ok t) (.ok A) n = .ok r)
    (hres' : finiteSlabTotalHeat (.ok s') (.ok rho') (.ok cp') (.ok Ts') (.ok To') (.ok k') (.ok t') (.ok A') n = .ok r') :
    ∃ q q', HasMag ρ r q ∧ HasMag ρ r' q' ∧
      q * (s'.magn ρ * rho'.magn ρ * cp'.magn ρ * (Ts'.magn ρ - To'.magn ρ) * A'.magn ρ) =
        q' * (s.magn ρ * rho.magn ρ * cp.magn ρ * (Ts.magn ρ - To.magn ρ) * A.magn ρ) :=
  ⟨_, _, C47_value_any_units hs hrho hcp hTs hTo hk ht hA hρ n hres,
    C47_value_any_units hs' hrho' hcp' hTs' hTo' hk' ht' hA' hρ n hres', by rw [hF]; ring⟩

end

/-- `finite_slab_diffusion`: the same relative position, the same `D t / a²` and the same number of terms. -/
theorem C113_slab_mass {Cs Co a z D t r Cs' Co' a' z' D' t' r' : Val ℝ} {ρ : Sym → ℝ} (hρ : Coherent ρ) (hCs : density.Has Cs)
    (hCo : density.Has Co) (ha : length.Has a) (hz : length.Has z) (hD : diffusivity.Has D) (ht : time.Has t)
    (hCs' : density.Has Cs') (hCo' : density.Has Co') (ha' : length.Has a') (hz' : length.Has z') (hD' : diffusivity.Has D')
    (ht' : time.Has t') (n : ℤ) (hres : finiteSlabDiffusion (.ok Cs) (.ok Co) (.ok a) (.ok z) (.ok D) (.ok t) n = .ok r)
    (hres' : finiteSlabDiffusion (.ok Cs') (.ok Co') (.ok a') (.ok z') (.ok D') (.ok t') n = .ok r')
    (pa : 0 < a.magn ρ) (pa' : 0 < a'.magn ρ) (p : 0 < D.magn ρ * t.magn ρ) (p' : 0 < D'.magn ρ * t'.magn ρ)
    (hsim : z.magn ρ / a.magn ρ = z'.magn ρ / a'.magn ρ)
    (hF : D.magn ρ * t.magn ρ / a.magn ρ ^ 2 = D'.magn ρ * t'.magn ρ / a'.magn ρ ^ 2) : SameFraction ρ r Cs Co r' Cs' Co' := by
  have h := (C75_finite_slab_diffusion ha hz hD ht n hCs hCo r hres).2 ρ hρ
  have h' := (C75_finite_slab_diffusion ha' hz' hD' ht' n hCs' hCo' r' hres').2 ρ hρ
  refine sameFraction_of h h' (Finset.sum_congr rfl fun m _ => ?_)
  have e0 : a.magn ρ / Real.sqrt (4 * (D.magn ρ * t.magn ρ)) = a'.magn ρ / Real.sqrt (4 * (D'.magn ρ * t'.magn ρ)) := by
    refine similar pa.le pa'.le p p' ?_
    rw [div_eq_div_iff (by positivity) (by positivity)] at hF
    linarith
  have ez : z.magn ρ / Real.sqrt (4 * (D.magn ρ * t.magn ρ)) = z'.magn ρ / Real.sqrt (4 * (D'.magn ρ * t'.magn ρ)) := by
    rw [show z.magn ρ / Real.sqrt (4 * (D.magn ρ * t.magn ρ)) =
        z.magn ρ / a.magn ρ * (a.magn ρ / Real.sqrt (4 * (D.magn ρ * t.magn ρ))) by field_simp, hsim, e0]
    field_simp
  have e (c y w u : ℝ) : (c * y + w) / u = c * (y / u) + w / u := by ring
  have e' (c y w u : ℝ) : (c * y - w) / u = c * (y / u) - w / u := by ring
  simp only [e, e', mul_assoc (4 : ℝ), e0, ez]

/-! ## Releases -/

section
variable {m A L x D t r m' A' L' x' D' t' r' : Val ℝ} {ρ : Sym → ℝ} (hρ : Coherent ρ) {c : ℝ}
  (hm : mass.Has m) (hA : area.Has A) (hL : length.Has L) (hx : length.Has x) (hD : diffusivity.Has D) (ht : time.Has t)
  (hm' : mass.Has m') (hA' : area.Has A') (hL' : length.Has L') (hx' : length.Has x') (hD' : diffusivity.Has D')
  (ht' : time.Has t')

theorem gauss_similar {x D t x' D' t' c : ℝ} (hc : 0 < c) (hx : x' = c * x) (hd : D' * t' = c ^ 2 * (D * t)) :
    Real.exp (-x' ^ 2 / (4 * D' * t')) = Real.exp (-x ^ 2 / (4 * D * t)) := by
  congr 1
  rw [mul_assoc, mul_assoc, hx, hd]
  generalize D * t = d
  by_cases h0 : d = 0
  · simp [h0]
  · field_simp

include hρ hm hA hx hD ht hm' hA' hx' hD' ht' in
/-- `one_d_pulse`: all lengths `c` times larger and `D t` `c²` times larger; the concentration relative to mass per area is `c`
times smaller. -/
theorem C113_one_d_pulse (hc : 0 < c) (hxx : x'.magn ρ = c * x.magn ρ)
    (hDt : D'.magn ρ * t'.magn ρ = c ^ 2 * (D.magn ρ * t.magn ρ))
    (hres : oneDPulse (.ok m) (.ok A) (.ok x) (.ok D) (.ok t) = .ok r)
    (hres' : oneDPulse (.ok m') (.ok A') (.ok x') (.ok D') (.ok t') = .ok r') :
    ∃ C C', HasMag ρ r C ∧ HasMag ρ r' C' ∧ C' * c * (m.magn ρ / A.magn ρ) = C * (m'.magn ρ / A'.magn ρ) := by
  refine ⟨_, _, (C75_one_d_pulse hm hA hx hD ht r hres).2 ρ hρ, (C75_one_d_pulse hm' hA' hx' hD' ht' r' hres').2 ρ hρ, ?_⟩
  have e : Real.sqrt (4 * Real.pi * D'.magn ρ * t'.magn ρ) = c * Real.sqrt (4 * Real.pi * D.magn ρ * t.magn ρ) := by
    rw [mul_assoc, hDt, show 4 * Real.pi * (c ^ 2 * (D.magn ρ * t.magn ρ)) = c ^ 2 * (4 * Real.pi * D.magn ρ * t.magn ρ) by ring,
      Real.sqrt_mul (sq_nonneg c), Real.sqrt_sq hc.le]
  beta_reduce
  rw [e, gauss_similar hc hxx hDt]
  by_cases h0 : Real.sqrt (4 * Real.pi * D.magn ρ * t.magn ρ) = 0
  · simp [h0]
  · field_simp

include hρ hm hL hx hD ht hm' hL' hx' hD' ht' in
/-- `two_d_pulse`: the concentration relative to mass per length is `c²` times smaller. -/
theorem C113_two_d_pulse (hc : 0 < c) (hxx : x'.magn ρ = c * x.magn ρ)
    (hDt : D'.magn ρ * t'.magn ρ = c ^ 2 * (D.magn ρ * t.magn ρ))
    (hres : twoDPulse (.ok m) (.ok L) (.ok x) (.ok D) (.ok t) = .ok r)
    (hres' : twoDPulse (.ok m') (.ok L') (.ok x') (.ok D') (.ok t') = .ok r') :
    ∃ C C', HasMag ρ r C ∧ HasMag ρ r' C' ∧ C' * c ^ 2 * (m.magn ρ / L.magn ρ) = C * (m'.magn ρ / L'.magn ρ) := by
  refine ⟨_, _, (C75_two_d_pulse hm hL hx hD ht r hres).2 ρ hρ, (C75_two_d_pulse hm' hL' hx' hD' ht' r' hres').2 ρ hρ, ?_⟩
  beta_reduce
  rw [gauss_similar hc hxx hDt, mul_assoc (4 * Real.pi), mul_assoc (4 * Real.pi), hDt]
  generalize Real.exp _ = E
  generalize D.magn ρ * t.magn ρ = d
  by_cases h0 : d = 0
  · simp [h0]
  · field_simp

include hρ hm hx hD ht hm' hx' hD' ht' in
/-- `three_d_pulse`, every shape: the concentration relative to the mass is `c³` times smaller. -/
theorem C113_three_d_pulse (shape : Sym) (hshape : shape = c!"sphere" ∨ shape = c!"hemisphere" ∨ shape = c!"cube") (hc : 0 < c)
    (hxx : x'.magn ρ = c * x.magn ρ) (hDt : D'.magn ρ * t'.magn ρ = c ^ 2 * (D.magn ρ * t.magn ρ)) (pD : 0 ≤ D.magn ρ * t.magn ρ)
    (hres : threeDPulse (.ok m) (.ok x) (.ok D) (.ok t) shape = .ok r)
    (hres' : threeDPulse (.ok m') (.ok x') (.ok D') (.ok t') shape = .ok r') :
    ∃ C C', HasMag ρ r C ∧ HasMag ρ r' C' ∧ C' * c ^ 3 * m.magn ρ = C * m'.magn ρ := by
  have e : (4 * Real.pi * D'.magn ρ * t'.magn ρ) ^ ((3 / 2 : ℚ) : ℝ) =
      c ^ 3 * (4 * Real.pi * D.magn ρ * t.magn ρ) ^ ((3 / 2 : ℚ) : ℝ) := by
    rw [mul_assoc (4 * Real.pi), hDt, show 4 * Real.pi * (c ^ 2 * (D.magn ρ * t.magn ρ)) =
        c ^ 2 * (4 * Real.pi * D.magn ρ * t.magn ρ) by ring, Real.mul_rpow (by positivity) (by rw [mul_assoc]; positivity)]
    congr 1
    rw [← Real.rpow_natCast c 2, ← Real.rpow_mul hc.le, ← Real.rpow_natCast c 3]
    norm_num
  have key (b : ℝ) : (b * m'.magn ρ) * Real.exp (-(x'.magn ρ) ^ 2 / (4 * D'.magn ρ * t'.magn ρ)) /
        (4 * Real.pi * D'.magn ρ * t'.magn ρ) ^ ((3 / 2 : ℚ) : ℝ) * c ^ 3 * m.magn ρ =
      (b * m.magn ρ) * Real.exp (-(x.magn ρ) ^ 2 / (4 * D.magn ρ * t.magn ρ)) /
        (4 * Real.pi * D.magn ρ * t.magn ρ) ^ ((3 / 2 : ℚ) : ℝ) * m'.magn ρ := by
    rw [e, gauss_similar hc hxx hDt]
    generalize (4 * Real.pi * D.magn ρ * t.magn ρ) ^ ((3 / 2 : ℚ) : ℝ) = d
    by_cases h0 : d = 0
    · simp [h0]
    · field_simp
  rcases hshape with rfl | rfl | rfl
  · refine ⟨_, _, (C75_three_d_pulse_sphere hm hx hD ht r hres).2 ρ hρ,
      (C75_three_d_pulse_sphere hm' hx' hD' ht' r' hres').2 ρ hρ, ?_⟩
    simpa only [one_mul] using key 1
  · exact ⟨_, _, (C75_three_d_pulse_hemisphere hm hx hD ht r hres).2 ρ hρ,
      (C75_three_d_pulse_hemisphere hm' hx' hD' ht' r' hres').2 ρ hρ, key 2⟩
  · exact ⟨_, _, (C75_three_d_pulse_cube hm hx hD ht r hres).2 ρ hρ,
      (C75_three_d_pulse_cube hm' hx' hD' ht' r' hres').2 ρ hρ, key 8⟩

end

/-! ## Exchanging the two sides -/

section
variable {k T1 T2 A x L r1 r2 D c1 c2 r r' : Val ℝ} {ρ : Sym → ℝ} (hρ : Coherent ρ)
  (hk : conductivity.Has k) (h1 : temperature.Has T1) (h2 : temperature.Has T2) (hA : area.Has A) (hx : length.Has x)
  (hL : length.Has L) (hr1 : length.Has r1) (hr2 : length.Has r2) (hD : diffusivity.Has D) (hc1 : density.Has c1)
  (hc2 : density.Has c2)
include hρ

include hk h1 h2 hA hx in
theorem C113_planar_heat_reversed (hres : planarHeat [k, T1, T2, A, x] [] = .ok r)
    (hres' : planarHeat [k, T2, T1, A, x] [] = .ok r') : Reversed ρ r r' :=
  ⟨_, _, (C75_planar_heat hk h1 h2 hA hx r hres).2 ρ hρ, (C75_planar_heat hk h2 h1 hA hx r' hres').2 ρ hρ, by ring⟩

include hk h1 h2 hx in
theorem C113_planar_flux_reversed (hres : planarFlux [k, T1, T2, x] [] = .ok r)
    (hres' : planarFlux [k, T2, T1, x] [] = .ok r') : Reversed ρ r r' :=
  ⟨_, _, (C75_planar_flux hk h1 h2 hx r hres).2 ρ hρ, (C75_planar_flux hk h2 h1 hx r' hres').2 ρ hρ, by ring⟩

include hk h1 h2 hL hr1 hr2 in
theorem C113_pipe_heat_reversed (hres : pipeHeat (.ok k) (.ok T1) (.ok T2) (.ok L) (.ok r2) (.ok r1) = .ok r)
    (hres' : pipeHeat (.ok k) (.ok T2) (.ok T1) (.ok L) (.ok r2) (.ok r1) = .ok r') : Reversed ρ r r' :=
  ⟨_, _, (C75_pipe_heat hk h1 h2 hL hr2 hr1 r hres).2 ρ hρ, (C75_pipe_heat hk h2 h1 hL hr2 hr1 r' hres').2 ρ hρ, by ring⟩

include hk h1 h2 hL hr1 hr2 in
/-- Naming the other surface of the pipe first changes nothing: the flow stays the one outwards. -/
theorem C113_pipe_heat_renamed (hres : pipeHeat (.ok k) (.ok T1) (.ok T2) (.ok L) (.ok r2) (.ok r1) = .ok r)
    (hres' : pipeHeat (.ok k) (.ok T2) (.ok T1) (.ok L) (.ok r1) (.ok r2) = .ok r') :
    ∃ q, HasMag ρ r q ∧ HasMag ρ r' q := by
  refine ⟨_, (C75_pipe_heat hk h1 h2 hL hr2 hr1 r hres).2 ρ hρ,
    ((C75_pipe_heat hk h2 h1 hL hr1 hr2 r' hres').2 ρ hρ).of_eq ?_⟩
  beta_reduce
  rw [← inv_div (r2.magn ρ), Real.log_inv, ← neg_sub (T2.magn ρ), neg_div_neg_eq]

include hD hA hc1 hc2 hx in
theorem C113_planar_mass_reversed (hres : planarMassTransfer (.ok D) (.ok A) (.ok c2) (.ok c1) (.ok x) = .ok r)
    (hres' : planarMassTransfer (.ok D) (.ok A) (.ok c1) (.ok c2) (.ok x) = .ok r') : Reversed ρ r r' :=
  ⟨_, _, (C75_planar_mass_transfer hD hA hc2 hc1 hx r hres).2 ρ hρ,
    (C75_planar_mass_transfer hD hA hc1 hc2 hx r' hres').2 ρ hρ, by ring⟩

include hD hc1 hc2 hx in
theorem C113_planar_mass_flux_reversed (hres : planarMassFlux (.ok D) (.ok c2) (.ok c1) (.ok x) = .ok r)
    (hres' : planarMassFlux (.ok D) (.ok c1) (.ok c2) (.ok x) = .ok r') : Reversed ρ r r' :=
  ⟨_, _, (C75_planar_mass_flux hD hc2 hc1 hx r hres).2 ρ hρ, (C75_planar_mass_flux hD hc1 hc2 hx r' hres').2 ρ hρ, by ring⟩

include hD hr1 hr2 hc1 hc2 hL in
theorem C113_pipe_mass_reversed (hres : pipeMassTransfer (.ok D) (.ok r2) (.ok r1) (.ok c2) (.ok c1) (.ok L) = .ok r)
    (hres' : pipeMassTransfer (.ok D) (.ok r2) (.ok r1) (.ok c1) (.ok c2) (.ok L) = .ok r') : Reversed ρ r r' :=
  ⟨_, _, (C75_pipe_mass_transfer hD hr2 hr1 hc2 hc1 hL r hres).2 ρ hρ,
    (C75_pipe_mass_transfer hD hr2 hr1 hc1 hc2 hL r' hres').2 ρ hρ, by ring⟩

include hD hr1 hr2 hc1 hc2 hL in
theorem C113_pipe_mass_renamed (hres : pipeMassTransfer (.ok D) (.ok r2) (.ok r1) (.ok c2) (.ok c1) (.ok L) = .ok r)
    (hres' : pipeMassTransfer (.ok D) (.ok r1) (.ok r2) (.ok c1) (.ok c2) (.ok L) = .ok r') :
    ∃ q, HasMag ρ r q ∧ HasMag ρ r' q := by
  refine ⟨_, (C75_pipe_mass_transfer hD hr2 hr1 hc2 hc1 hL r hres).2 ρ hρ,
    ((C75_pipe_mass_transfer hD hr1 hr2 hc1 hc2 hL r' hres').2 ρ hρ).of_eq ?_⟩
  beta_reduce
  rw [← inv_div (r2.magn ρ), Real.log_inv, ← neg_sub (c2.magn ρ), neg_div_neg_eq]

include hD hr1 hr2 hc1 hc2 in
theorem C113_sphere_mass_reversed (hres : sphereMassTransfer (.ok D) (.ok r2) (.ok r1) (.ok c2) (.ok c1) = .ok r)
    (hres' : sphereMassTransfer (.ok D) (.ok r2) (.ok r1) (.ok c1) (.ok c2) = .ok r') : Reversed ρ r r' :=
  ⟨_, _, (C75_sphere_mass_transfer hD hr2 hr1 hc2 hc1 r hres).2 ρ hρ,
    (C75_sphere_mass_transfer hD hr2 hr1 hc1 hc2 r' hres').2 ρ hρ, by ring⟩

include hD hr1 hr2 hc1 hc2 in
theorem C113_sphere_mass_renamed (hres : sphereMassTransfer (.ok D) (.ok r2) (.ok r1) (.ok c2) (.ok c1) = .ok r)
    (hres' : sphereMassTransfer (.ok D) (.ok r1) (.ok r2) (.ok c1) (.ok c2) = .ok r') :
    ∃ q, HasMag ρ r q ∧ HasMag ρ r' q := by
  refine ⟨_, (C75_sphere_mass_transfer hD hr2 hr1 hc2 hc1 r hres).2 ρ hρ,
    ((C75_sphere_mass_transfer hD hr1 hr2 hc1 hc2 r' hres').2 ρ hρ).of_eq ?_⟩
  beta_reduce
  rw [← neg_sub (c2.magn ρ), ← neg_sub (r2.magn ρ), neg_div_neg_eq]
  ring

end

/-- `deltat_logmean`: it does not matter which end of the exchanger is called the first. -/
theorem C113_logmean_ends {a b c e r r' : Val ℝ} (ha : temperature.Has a) (hb : temperature.Has b) (hc : temperature.Has c)
    (he : temperature.Has e) {ρ : Sym → ℝ} (hρ : Coherent ρ) (hres : deltatLogmean (.ok a) (.ok b) (.ok c) (.ok e) = .ok r)
    (hres' : deltatLogmean (.ok b) (.ok a) (.ok e) (.ok c) = .ok r') : ∃ T, HasMag ρ r T ∧ HasMag ρ r' T := by
  refine ⟨_, (C75_logmean ha hb hc he r hres).2 ρ hρ, ((C75_logmean hb ha he hc r' hres').2 ρ hρ).of_eq ?_⟩
  beta_reduce
  rw [← inv_div (a.magn ρ - e.magn ρ), Real.log_inv, ← neg_sub (a.magn ρ - e.magn ρ), neg_div_neg_eq]

/-- Exchanging hot and cold side reverses the mean difference. -/
theorem C113_logmean_sides {a b c e r r' : Val ℝ} (ha : temperature.Has a) (hb : temperature.Has b) (hc : temperature.Has c)
    (he : temperature.Has e) {ρ : Sym → ℝ} (hρ : Coherent ρ) (hres : deltatLogmean (.ok a) (.ok b) (.ok c) (.ok e) = .ok r)
    (hres' : deltatLogmean (.ok e) (.ok c) (.ok b) (.ok a) = .ok r') : Reversed ρ r r' := by
  refine ⟨_, _, (C75_logmean ha hb hc he r hres).2 ρ hρ, (C75_logmean he hc hb ha r' hres').2 ρ hρ, ?_⟩
  beta_reduce
  rw [← neg_sub (a.magn ρ) (e.magn ρ), ← neg_sub (b.magn ρ) (c.magn ρ), neg_div_neg_eq]
  ring

/-! ## Superposition -/

section
variable {S O S' O' S'' O'' : Val ℝ} {ρ : Sym → ℝ} (hρ : Coherent ρ) {w : ℝ}
  (hS : S''.magn ρ = w * S.magn ρ + (1 - w) * S'.magn ρ) (hO : O''.magn ρ = w * O.magn ρ + (1 - w) * O'.magn ρ)

include hS hO in
theorem mixture_of {r r' r'' : Val ℝ} {e : ℝ} (h : HasMag ρ r (S.magn ρ - (S.magn ρ - O.magn ρ) * e))
    (h' : HasMag ρ r' (S'.magn ρ - (S'.magn ρ - O'.magn ρ) * e))
    (h'' : HasMag ρ r'' (S''.magn ρ - (S''.magn ρ - O''.magn ρ) * e)) : Mixture ρ w r r' r'' :=
  ⟨_, _, _, h, h', h'', by rw [hS, hO]; ring⟩

variable (tS : temperature.Has S) (tO : temperature.Has O) (tS' : temperature.Has S') (tO' : temperature.Has O')
  (tS'' : temperature.Has S'') (tO'' : temperature.Has O'') {r r' r'' : Val ℝ}

include hρ hS hO tS tO tS' tO' tS'' tO'' in
/-- `lumped_parameter` is linear in the temperatures. -/
theorem C113_lumped_mixture {h A rho cp V t : Val ℝ} (hh : htc.Has h) (hA : area.Has A) (hr : density.Has rho)
    (hc : heatCapacity.Has cp) (hV : volume.Has V) (ht : time.Has t)
    (hres : lumpedParameter (.ok S) (.ok O) (.ok h) (.ok A) (.ok rho) (.ok cp) (.ok V) (.ok t) = .ok r)
    (hres' : lumpedParameter (.ok S') (.ok O') (.ok h) (.ok A) (.ok rho) (.ok cp) (.ok V) (.ok t) = .ok r')
    (hres'' : lumpedParameter (.ok S'') (.ok O'') (.ok h) (.ok A) (.ok rho) (.ok cp) (.ok V) (.ok t) = .ok r'') :
    Mixture ρ w r r' r'' :=
  mixture_of hS hO ((C75_lumped tS tO hh hA hr hc hV ht r hres).2 ρ hρ) ((C75_lumped tS' tO' hh hA hr hc hV ht r' hres').2 ρ hρ)
    ((C75_lumped tS'' tO'' hh hA hr hc hV ht r'' hres'').2 ρ hρ)

include hρ hS hO tS tO tS' tO' tS'' tO'' in
/-- `semi_infinite_slab_conduction` is linear in the temperatures. -/
theorem C113_half_space_heat_mixture {z t rho cp k : Val ℝ} (hz : length.Has z) (ht : time.Has t) (hr : density.Has rho)
    (hc : heatCapacity.Has cp) (hk : conductivity.Has k)
    (hres : semiInfiniteSlabConduction (.ok S) (.ok O) (.ok z) (.ok t) (.ok rho) (.ok cp) (.ok k) = .ok r)
    (hres' : semiInfiniteSlabConduction (.ok S') (.ok O') (.ok z) (.ok t) (.ok rho) (.ok cp) (.ok k) = .ok r')
    (hres'' : semiInfiniteSlabConduction (.ok S'') (.ok O'') (.ok z) (.ok t) (.ok rho) (.ok cp) (.ok k) = .ok r'') :
    Mixture ρ w r r' r'' :=
  mixture_of hS hO ((C75_semi_infinite_slab tS tO hz ht hr hc hk r hres).2 ρ hρ)
    ((C75_semi_infinite_slab tS' tO' hz ht hr hc hk r' hres').2 ρ hρ)
    ((C75_semi_infinite_slab tS'' tO'' hz ht hr hc hk r'' hres'').2 ρ hρ)

include hρ hS hO tS tO tS' tO' tS'' tO'' in
/-- `finite_slab_conduction` is linear in the temperatures, for any number of terms. -/
theorem C113_slab_heat_mixture {x s k rho cp t : Val ℝ} (hx : length.Has x) (hs : length.Has s) (hk : conductivity.Has k)
    (hr : density.Has rho) (hc : heatCapacity.Has cp) (ht : time.Has t) (n : ℤ)
    (hres : finiteSlabConduction (.ok S) (.ok O) (.ok x) (.ok s) (.ok k) (.ok rho) (.ok cp) (.ok t) n = .ok r)
    (hres' : finiteSlabConduction (.ok S') (.ok O') (.ok x) (.ok s) (.ok k) (.ok rho) (.ok cp) (.ok t) n = .ok r')
    (hres'' : finiteSlabConduction (.ok S'') (.ok O'') (.ok x) (.ok s) (.ok k) (.ok rho) (.ok cp) (.ok t) n = .ok r'') :
    Mixture ρ w r r' r'' := by
  have h := (C75_finite_slab_conduction tS tO hx hs hk hr hc ht n r hres).2 ρ hρ
  have h' := (C75_finite_slab_conduction tS' tO' hx hs hk hr hc ht n r' hres').2 ρ hρ
  have h'' := (C75_finite_slab_conduction tS'' tO'' hx hs hk hr hc ht n r'' hres'').2 ρ hρ
  beta_reduce at h h' h''
  rw [mul_assoc] at h h' h''
  exact mixture_of hS hO h h' h''

variable (cS : density.Has S) (cO : density.Has O) (cS' : density.Has S') (cO' : density.Has O') (cS'' : density.Has S'')
  (cO'' : density.Has O'')

include hρ hS hO cS cO cS' cO' cS'' cO'' in
/-- `semi_infinite_slab_diffusion` is linear in the concentrations. -/
theorem C113_half_space_mass_mixture {z D t : Val ℝ} (hz : length.Has z) (hD : diffusivity.Has D) (ht : time.Has t)
    (hres : semiInfiniteSlabDiffusion (.ok S) (.ok O) (.ok z) (.ok D) (.ok t) = .ok r)
    (hres' : semiInfiniteSlabDiffusion (.ok S') (.ok O') (.ok z) (.ok D) (.ok t) = .ok r')
    (hres'' : semiInfiniteSlabDiffusion (.ok S'') (.ok O'') (.ok z) (.ok D) (.ok t) = .ok r'') : Mixture ρ w r r' r'' :=
  mixture_of hS hO ((C75_semi_infinite_diffusion cS cO hz hD ht r hres).2 ρ hρ)
    ((C75_semi_infinite_diffusion cS' cO' hz hD ht r' hres').2 ρ hρ)
    ((C75_semi_infinite_diffusion cS'' cO'' hz hD ht r'' hres'').2 ρ hρ)

include hρ hS hO cS cO cS' cO' cS'' cO'' in
/-- `finite_slab_diffusion` is linear in the concentrations, for any number of terms. -/
theorem C113_slab_mass_mixture {a z D t : Val ℝ} (ha : length.Has a) (hz : length.Has z) (hD : diffusivity.Has D)
    (ht : time.Has t) (n : ℤ)
    (hres : finiteSlabDiffusion (.ok S) (.ok O) (.ok a) (.ok z) (.ok D) (.ok t) n = .ok r)
    (hres' : finiteSlabDiffusion (.ok S') (.ok O') (.ok a) (.ok z) (.ok D) (.ok t) n = .ok r')
    (hres'' : finiteSlabDiffusion (.ok S'') (.ok O'') (.ok a) (.ok z) (.ok D) (.ok t) n = .ok r'') : Mixture ρ w r r' r'' :=
  mixture_of hS hO ((C75_finite_slab_diffusion ha hz hD ht n cS cO r hres).2 ρ hρ)
    ((C75_finite_slab_diffusion ha hz hD ht n cS' cO' r' hres').2 ρ hρ)
    ((C75_finite_slab_diffusion ha hz hD ht n cS'' cO'' r'' hres'').2 ρ hρ)

end

/-! ## The same in SI units, where the calls return -/

/-- A depth `c` times larger is reached after a time `c²` times longer. -/
theorem C113_half_space_heat_SI (ts t0 z t rho cp k c : ℝ) (ht : 0 < t) (hr : 0 < rho) (hc : 0 < cp) (hk : 0 < k) (h : 0 < c) :
    semiInfiniteSlabConduction (tempSI ts) (tempSI t0) (lenSI (c * z)) (timeSI (c ^ 2 * t)) (densSI rho) (cpSI cp) (condSI k) =
      semiInfiniteSlabConduction (tempSI ts) (tempSI t0) (lenSI z) (timeSI t) (densSI rho) (cpSI cp) (condSI k) := by
  rw [C46_conduction_value _ _ _ _ _ _ _ (by positivity) hr hc hk, C46_conduction_value _ _ _ _ _ _ _ ht hr hc hk,
    show 4 * (k / (rho * cp)) * (c ^ 2 * t) = c ^ 2 * (4 * (k / (rho * cp)) * t) by ring, Real.sqrt_mul (sq_nonneg c),
    Real.sqrt_sq h.le, mul_div_mul_left _ _ h.ne']

theorem C113_half_space_mass_SI (cs c0 z D t c : ℝ) (hD : 0 < D) (ht : 0 < t) (h : 0 < c) :
    semiInfiniteSlabDiffusion (concSI cs) (concSI c0) (lenSI (c * z)) (diffSI D) (timeSI (c ^ 2 * t)) =
      semiInfiniteSlabDiffusion (concSI cs) (concSI c0) (lenSI z) (diffSI D) (timeSI t) := by
  rw [C46_diffusion_value _ _ _ _ _ hD (by positivity), C46_diffusion_value _ _ _ _ _ hD ht,
    show 4 * D * (c ^ 2 * t) = c ^ 2 * (4 * D * t) by ring, Real.sqrt_mul (sq_nonneg c), Real.sqrt_sq h.le,
    mul_div_mul_left _ _ h.ne']

/-- A body `c` times larger in every direction follows `c` times more slowly. -/
theorem C113_lumped_SI (tf t0 h a rho cp v t c : ℝ) (hr : rho ≠ 0) (hc : cp ≠ 0) (hv : v ≠ 0) (h0 : c ≠ 0) :
    lumpedParameter (tempSI tf) (tempSI t0) (htcSI h) (areaSI (c ^ 2 * a)) (densSI rho) (cpSI cp) (volSI (c ^ 3 * v))
        (timeSI (c * t)) =
      lumpedParameter (tempSI tf) (tempSI t0) (htcSI h) (areaSI a) (densSI rho) (cpSI cp) (volSI v) (timeSI t) := by
  rw [C45_value _ _ _ _ _ _ _ _ hr hc (by positivity), C45_value _ _ _ _ _ _ _ _ hr hc hv,
    show -(h * (c ^ 2 * a) * (c * t)) / (rho * cp * (c ^ 3 * v)) = -(h * a * t) / (rho * cp * v) by field_simp]

/-- A slab `c` times larger in every direction takes up `c³` times the heat in `c²` times the time. -/
theorem C113_slab_total_heat_SI (s rho cp ts t0 k t a c : ℝ) (n : ℤ) (hs : s ≠ 0) (hr : rho ≠ 0) (hc : cp ≠ 0) (h0 : c ≠ 0) :
    finiteSlabTotalHeat (lenSI (c * s)) (densSI rho) (cpSI cp) (tempSI ts) (tempSI t0) (condSI k) (timeSI (c ^ 2 * t))
        (areaSI (c ^ 2 * a)) n =
      pnum (c ^ 3) *
        finiteSlabTotalHeat (lenSI s) (densSI rho) (cpSI cp) (tempSI ts) (tempSI t0) (condSI k) (timeSI t) (areaSI a) n := by
  rw [C47_value _ _ _ _ _ _ _ _ _ (mul_ne_zero h0 hs) hr hc, C47_value _ _ _ _ _ _ _ _ _ hs hr hc]
  have e : fourier (c * s) rho cp k (c ^ 2 * t) = fourier s rho cp k t := by
    rw [fourier, fourier]
    field_simp
  rw [e]
  units_eval []
  exact okUnit_congr (by ring)

/-- Non-vacuity of the hypotheses of the theorems in any units: a depth of a foot after an hour against three feet after nine
hours in the same material. -/
example : length.Has (.unit ⟨.length, (1 : ℝ), c!"ft", 1⟩) ∧ length.Has (.unit ⟨.length, (3 : ℝ), c!"ft", 1⟩) ∧
    time.Has (.unit ⟨.time, (1 : ℝ), c!"hr", 1⟩) ∧ time.Has (.unit ⟨.time, (9 : ℝ), c!"hr", 1⟩) ∧
    ∀ ρ : Sym → ℝ, ∀ a : ℝ, (Val.unit ⟨.length, (1 : ℝ), c!"ft", 1⟩).magn ρ ^ 2 * (a * (Val.unit ⟨.time, (9 : ℝ), c!"hr", 1⟩).magn ρ) =
      (Val.unit ⟨.length, (3 : ℝ), c!"ft", 1⟩).magn ρ ^ 2 * (a * (Val.unit ⟨.time, (1 : ℝ), c!"hr", 1⟩).magn ρ) := by
  have kft : Known c!"ft" ∧ dimOf c!"ft" = (1, 0, 0, 0, 0, 0) := by unfold Known; decide +kernel
  have khr : Known c!"hr" ∧ dimOf c!"hr" = (0, 0, 1, 0, 0, 0) := by unfold Known; decide +kernel
  refine ⟨⟨_, rfl, ⟨1, c!"ft", 1, rfl⟩, kft.1, rfl, kft.2⟩, ⟨_, rfl, ⟨3, c!"ft", 1, rfl⟩, kft.1, rfl, kft.2⟩,
    ⟨_, rfl, ⟨1, c!"hr", 1, rfl⟩, khr.1, rfl, khr.2⟩, ⟨_, rfl, ⟨9, c!"hr", 1, rfl⟩, khr.1, rfl, khr.2⟩, fun ρ a => ?_⟩
  simp only [Val.magn, UnitV.mag]
  ring

/-- Non-vacuity: a pipe conducting heat, with the temperatures exchanged and with the surfaces exchanged. -/
example : pipeHeat (condSI 2) (tempSI 300) (tempSI 310) (lenSI 1) (lenSI 2) (lenSI 1) =
      qU .unit (-2 * Real.pi * 1 * 2 * (310 - 300) / Real.log (2 / 1)) c!"W" ∧
    pipeHeat (condSI 2) (tempSI 310) (tempSI 300) (lenSI 1) (lenSI 2) (lenSI 1) =
      qU .unit (-2 * Real.pi * 1 * 2 * (300 - 310) / Real.log (2 / 1)) c!"W" ∧
    pipeHeat (condSI 2) (tempSI 310) (tempSI 300) (lenSI 1) (lenSI 1) (lenSI 2) =
      qU .unit (-2 * Real.pi * 1 * 2 * (300 - 310) / Real.log (1 / 2)) c!"W" :=
  ⟨C35_pipe _ _ _ _ _ _ (by norm_num) (by norm_num) (by norm_num), C35_pipe _ _ _ _ _ _ (by norm_num) (by norm_num) (by norm_num),
    C35_pipe _ _ _ _ _ _ (by norm_num) (by norm_num) (by norm_num)⟩

end Verif
