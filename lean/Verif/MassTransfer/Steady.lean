import Verif.Units.MathFun

/-!
# Steady state diffusion

Model of `cheme_calculations/mass_transfer/steady_state_diffusion.py`.
-/

namespace Verif

/-- steady_state_diffusion.py:9-30 `planar_mass_transfer_steady_state`. -/
def planarMassTransfer {K : Type} [Zero K] [One K] [Add K] [Sub K] [Mul K] [Div K] [Neg K] [NatCast K] [RatCast K] [LinearOrder K] [PyPow K] (D A C2 C1 thickness : PyM (Val K)) : PyM (Val K) :=
  (-D) * A * ((C2 - C1) / thickness)

/-- steady_state_diffusion.py:32-51 `planar_mass_flux_steady_state`. -/
def planarMassFlux {K : Type} [Zero K] [One K] [Add K] [Sub K] [Mul K] [Div K] [Neg K] [NatCast K] [RatCast K] [LinearOrder K] [PyPow K] (D C2 C1 thickness : PyM (Val K)) : PyM (Val K) :=
  (-D) * ((C2 - C1) / thickness)

/-- steady_state_diffusion.py:53-92 `pipe_mass_transfer_steady_state`. -/
noncomputable def pipeMassTransfer (D r2 r1 C2 C1 L : PyM (Val ℝ)) : PyM (Val ℝ) :=
  pnum (-2) * pyPi * L * D * ((C2 - C1) / pyLog (r2 / r1))

/-- steady_state_diffusion.py:95-129 `sphere_mass_transfer_steady_state`. -/
noncomputable def sphereMassTransfer (D r2 r1 C2 C1 : PyM (Val ℝ)) : PyM (Val ℝ) :=
  pnum (-4) * pyPi * r1 * r2 * D * ((C2 - C1) / (r2 - r1))

end Verif
