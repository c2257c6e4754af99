import Verif.Units.MathFun

/-!
# Non steady state conduction

Model of `cheme_calculations/heat_transfer/non_steady_state_conduction.py`.  Local variables (`alpha`, `left`) are
substituted where they are used, so an error of `alpha` goes unnoticed when a series has no terms.
-/

namespace Verif

/-- non_steady_state_conduction.py:14-56 `pseudo_steady_time`. -/
noncomputable def pseudoSteadyTime (density heatOfFusion k Tsurface Tmelt initialLength finalLength : PyM (Val ℝ)) :
    PyM (Val ℝ) :=
  let term1 := (density * heatOfFusion) / (k * (Tsurface - Tmelt))
  let term2 := (ppow finalLength 2 - ppow initialLength 2) / pnum 2
  term1 * term2

/-- non_steady_state_conduction.py:59-101 `semi_infinite_slab_conduction`. -/
noncomputable def semiInfiniteSlabConduction (Ts To z time rho Cp k : PyM (Val ℝ)) : PyM (Val ℝ) :=
  let alpha := k / (rho * Cp)
  Ts - (Ts - To) * pyErf (z / ppow (pnum 4 * alpha * time) (1 / 2))

/-- non_steady_state_conduction.py:103-149 `lumped_parameter`. -/
noncomputable def lumpedParameter (Tf To h A rho cP V time : PyM (Val ℝ)) : PyM (Val ℝ) :=
  Tf - (Tf - To) * pyExp ((-(h * A * time)) / (rho * cP * V))

/-- non_steady_state_conduction.py:193: one term of the series (`2*n+1` is a Python integer). -/
noncomputable def slabTerm (x s alpha time : PyM (Val ℝ)) (n : ℕ) : PyM (Val ℝ) :=
  let m : PyM (Val ℝ) := pnum (2 * (n : ℝ) + 1)
  (pnum 1 / m) * pySin ((m * pyPi * x) / (pnum 2 * s)) *
    pyExp ((-(ppow (m * (pyPi / pnum 2)) 2)) * ((alpha * time) / ppow s 2))

/-- non_steady_state_conduction.py:151-197 `finite_slab_conduction`. -/
noncomputable def finiteSlabConduction (Ts To x s k rho Cp time : PyM (Val ℝ)) (iterations : ℤ) : PyM (Val ℝ) :=
  let alpha := k / (rho * Cp)
  Ts - (Ts - To) * (pnum 4 / pyPi) * pySum (iterations + 1) (slabTerm x s alpha time)

/-- non_steady_state_conduction.py:249: one term of the series. -/
noncomputable def slabHeatTerm (s alpha time : PyM (Val ℝ)) (n : ℕ) : PyM (Val ℝ) :=
  let m : PyM (Val ℝ) := pnum (2 * (n : ℝ) + 1)
  (pnum 1 / ppow m 2) * (pnum 1 - pyExp ((-(ppow (m * (pyPi / pnum 2)) 2)) * ((alpha * time) / ppow s 2)))

/-- non_steady_state_conduction.py:200-251 `finite_slab_total_heat`. -/
noncomputable def finiteSlabTotalHeat (s rho cp Ts To k time area : PyM (Val ℝ)) (iterations : ℤ) : PyM (Val ℝ) :=
  let left := (pnum 8 * s * rho * cp * (Ts - To) * area) / ppow pyPi 2
  let alpha := k / (rho * cp)
  left * pySum iterations (slabHeatTerm s alpha time)

end Verif
