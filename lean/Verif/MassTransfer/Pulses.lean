import Verif.Units.MathFun

/-!
# Decay of concentration pulses

Model of `cheme_calculations/mass_transfer/diffusion_scenarios.py`.
-/

namespace Verif

/-- diffusion_scenarios.py:10-49 `three_d_pulse_decay`. -/
noncomputable def threeDPulse (initialMass distance D time : PyM (Val ℝ)) (shape : Sym) : PyM (Val ℝ) :=
  let m := if shape = c!"hemisphere" then pnum 2 * initialMass
    else if shape = c!"cube" then pnum 8 * initialMass else initialMass
  let top := m * pyExp ((-(ppow distance 2)) / (pnum 4 * D * time))
  let bottom := ppow (pnum 4 * pyPi * D * time) (3 / 2)
  top / bottom

/-- diffusion_scenarios.py:52-93 `two_d_pulse_decay`. -/
noncomputable def twoDPulse (initialMass L distance D time : PyM (Val ℝ)) : PyM (Val ℝ) :=
  let m := initialMass / L
  let top := m * pyExp ((-(ppow distance 2)) / (pnum 4 * D * time))
  let bottom := pnum 4 * pyPi * D * time
  top / bottom

/-- diffusion_scenarios.py:96-138 `one_d_pulse_decay`. -/
noncomputable def oneDPulse (initialMass area distance D time : PyM (Val ℝ)) : PyM (Val ℝ) :=
  let m := initialMass / area
  let top := m * pyExp ((-(ppow distance 2)) / (pnum 4 * D * time))
  let bottom := ppow (pnum 4 * pyPi * D * time) (1 / 2)
  top / bottom

end Verif
