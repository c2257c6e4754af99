import Verif.Units.MathFun

/-!
# Non steady state diffusion

Model of `cheme_calculations/mass_transfer/non_steady_state_diffusion.py`.
-/

namespace Verif

/-- non_steady_state_diffusion.py:8-44 `semi_infinite_slab_diffusion`. -/
noncomputable def semiInfiniteSlabDiffusion (Cs Co z D t : PyM (Val ℝ)) : PyM (Val ℝ) :=
  Cs - (Cs - Co) * pyErf (z / ppow (pnum 4 * D * t) (1 / 2))

/-- non_steady_state_diffusion.py:87: one term of the series. -/
noncomputable def slabDiffusionTerm (a z D t : PyM (Val ℝ)) (n : ℕ) : PyM (Val ℝ) :=
  let m : PyM (Val ℝ) := pnum (2 * (n : ℝ) + 1)
  pnum ((-1) ^ n) * (pyErfc ((m * a + z) / ppow (pnum 4 * D * t) (1 / 2)) +
    pyErfc ((m * a - z) / ppow (pnum 4 * D * t) (1 / 2)))

/-- non_steady_state_diffusion.py:46-91 `finite_slab_diffusion`. -/
noncomputable def finiteSlabDiffusion (Cs Co a z D t : PyM (Val ℝ)) (iterations : ℤ) : PyM (Val ℝ) :=
  Cs - (Cs - Co) * pySum iterations (slabDiffusionTerm a z D t)

end Verif
