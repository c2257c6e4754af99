import Verif.Units.MathFun
import Verif.Utility.Solve

/-!
# Steady state conduction

Model of `cheme_calculations/heat_transfer/steady_state_conduction.py`.
-/

namespace Verif

section
variable {K : Type}

/-- Read a local variable (parameters are always bound). -/
def arg (env : List (Sym × Val K)) (n : Sym) : PyM (Val K) :=
  match kwGet n env with
  | some v => .ok v
  | none => .error .nameError

variable [Zero K] [One K] [Add K] [Sub K] [Mul K] [Div K] [Neg K] [NatCast K] [RatCast K] [LinearOrder K] [PyPow K]

/-- steady_state_conduction.py:58-72, the body of `planar_heat`; falls through to None. -/
def planarHeatBody (env : List (Sym × Val K)) (s : Solving) : PyM (Val K) :=
  let k := arg env c!"k"
  let T1 := arg env c!"T1"
  let T2 := arg env c!"T2"
  let A := arg env c!"A"
  let thickness := arg env c!"thickness"
  let q := arg env c!"q"
  if s = .one c!"q" then (-k) * A * ((T2 - T1) / thickness)
  else if s = .one c!"thickness" then ((-k) * A * (T2 - T1)) / q
  else if s = .one c!"T2" then ((thickness * q) / ((-k) * A)) + T1
  else if s = .one c!"T1" then (-((thickness * q) / ((-k) * A))) + T2
  else .ok .none

/-- steady_state_conduction.py:12-13. -/
def planarHeatSig : Sig (Val K) where
  names := [c!"k", c!"T1", c!"T2", c!"A", c!"thickness", c!"q"]
  defaults := some [.none]

/-- steady_state_conduction.py:11-72 `planar_heat`. -/
def planarHeat (args : List (Val K)) (kw : List (Sym × Val K)) : PyM (Val K) :=
  solvableFor Val.isNone planarHeatSig [c!"q", c!"T1", c!"T2", c!"thickness"] 1 planarHeatBody args kw

/-- steady_state_conduction.py:120-133, the body of `planar_flux`. -/
def planarFluxBody (env : List (Sym × Val K)) (s : Solving) : PyM (Val K) :=
  let k := arg env c!"k"
  let T1 := arg env c!"T1"
  let T2 := arg env c!"T2"
  let thickness := arg env c!"thickness"
  let qA := arg env c!"qA"
  if s = .one c!"qA" then (-k) * ((T2 - T1) / thickness)
  else if s = .one c!"thickness" then ((-k) * (T2 - T1)) / qA
  else if s = .one c!"T2" then ((thickness * qA) / (-k)) + T1
  else if s = .one c!"T1" then (-((thickness * qA) / (-k))) + T2
  else .ok .none

/-- steady_state_conduction.py:75-76. -/
def planarFluxSig : Sig (Val K) where
  names := [c!"k", c!"T1", c!"T2", c!"thickness", c!"qA"]
  defaults := some [.none]

/-- steady_state_conduction.py:74-133 `planar_flux`. -/
def planarFlux (args : List (Val K)) (kw : List (Sym × Val K)) : PyM (Val K) :=
  solvableFor Val.isNone planarFluxSig [c!"qA", c!"T1", c!"T2", c!"thickness"] 1 planarFluxBody args kw

end

/-- steady_state_conduction.py:135-162 `pipe_heat`. -/
noncomputable def pipeHeat (k T1 T2 length r2 r1 : PyM (Val ℝ)) : PyM (Val ℝ) :=
  pnum (-2) * pyPi * length * k * ((T2 - T1) / pyLog (r2 / r1))

/-- steady_state_conduction.py:164-186 `sphere_heat`; the conductivity `k` is not used. -/
noncomputable def sphereHeat (_k T1 T2 outer inner : PyM (Val ℝ)) : PyM (Val ℝ) :=
  pnum (-4) * pyPi * inner * outer * ((T2 - T1) / (outer - inner))

end Verif
