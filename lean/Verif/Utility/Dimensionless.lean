import Verif.Units.Expr

/-!
# Dimensionless groups

Model of `cheme_calculations/utility/dimensionless.py`.
-/

namespace Verif

section
variable {K : Type} [Zero K] [One K] [Add K] [Sub K] [Mul K] [Div K] [Neg K] [NatCast K] [RatCast K] [LinearOrder K] [PyPow K]

/-- dimensionless.py:9-23 `reynolds`. -/
def reynolds (rho v L mu : PyM (Val K)) : PyM (Val K) := (rho * v * L) / mu
/-- dimensionless.py:25-38 `biot`. -/
def biot (h L k : PyM (Val K)) : PyM (Val K) := (h * L) / k
/-- dimensionless.py:40-53 `prandtl`. -/
def prandtl (mu cp k : PyM (Val K)) : PyM (Val K) := (mu * cp) / k
/-- dimensionless.py:55-68 `schmidt`. -/
def schmidt (mu rho D : PyM (Val K)) : PyM (Val K) := mu / (rho * D)
/-- dimensionless.py:71-94 `gretz`. -/
def gretz (diameter length cp charLength rho charSpeed k : PyM (Val K)) : PyM (Val K) :=
  (cp * diameter * charLength * rho * charSpeed) / (k * length)
/-- dimensionless.py:98-135 `grashof`. -/
def grashof (g beta T2 T1 L rho mu : PyM (Val K)) : PyM (Val K) :=
  (ppow L 3 * ppow rho 2 * beta * (T2 - T1) * g) / ppow mu 2
/-- dimensionless.py:137-157 `beta`. -/
def thermalBeta (rho1 rho2 T2 T1 : PyM (Val K)) : PyM (Val K) :=
  (rho1 - rho2) / (((rho1 + rho2) / pnum 2) * (T2 - T1))

end

end Verif
