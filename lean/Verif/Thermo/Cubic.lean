import Verif.Units.Expr
import Verif.Units.Real
import Verif.Units.MathFun

/-!
# cheme_calculations/thermodynamics/cubic_equations.py

The acentric factor is a plain number, the iteration count an int (`range(n)` is empty for negative `n`).  Values of any
number type `K`: the reals, or the floating point numbers `Fl A`.
-/

namespace Verif

variable {K : Type} [Zero K] [One K] [Add K] [Sub K] [Mul K] [Div K] [Neg K] [NatCast K] [RatCast K] [LinearOrder K]
  [PyPow K]

/-- cubic_equations.py:53, 116, 177, 240 (right-hand side of the vapour assignment). -/
def vapourStep (beta q z : PyM (Val K)) : PyM (Val K) :=
  pnum 1 + beta - q * beta * ((z - beta) / (z * (z + beta)))

/-- cubic_equations.py:61, 123, 184, 247 (right-hand side of the liquid assignment). -/
def liquidStep (beta q z : PyM (Val K)) : PyM (Val K) :=
  beta + z * (z + beta) * ((pnum 1 + beta - z) / (q * beta))

/-- cubic_equations.py:237, 244 (the first assignment of peng_robinson in both states). -/
def prStep (sigma epsilon beta q z : PyM (Val K)) : PyM (Val K) :=
  beta + (z + epsilon * beta) * (z + sigma * beta) * ((pnum 1 + beta - z) / (q * beta))

/-- `for i in range(iterations): z_in = z_iter; z_iter = step(z_in)`. -/
def loop (step : PyM (Val K) → PyM (Val K)) : ℕ → PyM (Val K) → PyM (Val K)
  | 0, z => z
  | n + 1, z => loop step n (step z)

/-- The two `if state == …` blocks and `return z_iter`; `z_iter` is unbound for any other state. -/
def iterateState (state : Sym) (iterations : ℤ) (beta q firstV firstL : PyM (Val K)) : PyM (Val K) :=
  match beta, q with
  | .error e, _ => .error e
  | _, .error e => .error e
  | beta, q =>
    if state = c!"vapor" then loop (vapourStep beta q) iterations.toNat firstV
    else if state = c!"liquid" then loop (liquidStep beta q) iterations.toNat firstL
    else .error .unboundLocal

/-- cubic_equations.py:11-66 `rendlich_kwong`. -/
def rendlichKwong (temperature pressure tcrit pcrit : PyM (Val K)) (state : Sym) (iterations : ℤ) :
    PyM (Val K) :=
  let p := pressure / pcrit
  let t := temperature / tcrit
  let omega := pnum ((8664 / 100000 : ℚ) : K)
  let psi := pnum ((42748 / 100000 : ℚ) : K)
  let alpha := ppow t (-1 / 2)
  let beta := omega * (p / t)
  let q := (psi * alpha) / (omega * t)
  iterateState state iterations beta q (vapourStep beta q (pnum 1)) (liquidStep beta q beta)

/-- cubic_equations.py:70-128 `van_der_waals`. -/
def vanDerWaals (temperature pressure tcrit pcrit : PyM (Val K)) (state : Sym) (iterations : ℤ) :
    PyM (Val K) :=
  let p := pressure / pcrit
  let t := temperature / tcrit
  let omega := pnum ((1 / 8 : ℚ) : K)
  let psi := pnum ((27 / 64 : ℚ) : K)
  let alpha := pnum 1
  let beta := omega * (p / t)
  let q := (psi * alpha) / (omega * t)
  iterateState state iterations beta q (vapourStep beta q (pnum 1)) (liquidStep beta q beta)

/-- cubic_equations.py:131-189 `soave_rendlich_kwong`. -/
def soaveRendlichKwong (temperature pressure tcrit pcrit : PyM (Val K)) (state : Sym) (w : K)
    (iterations : ℤ) : PyM (Val K) :=
  let p := pressure / pcrit
  let t := temperature / tcrit
  let omega := pnum ((8664 / 100000 : ℚ) : K)
  let psi := pnum ((42748 / 100000 : ℚ) : K)
  let alpha := ppow (pnum 1 + (pnum ((480 / 1000 : ℚ) : K) + pnum ((1574 / 1000 : ℚ) : K) * pnum w - pnum ((176 / 1000 : ℚ) : K) * ppow (pnum w) 2) *
    (pnum 1 - ppow t (1 / 2))) 2
  let beta := omega * (p / t)
  let q := (psi * alpha) / (omega * t)
  iterateState state iterations beta q (vapourStep beta q (pnum 1)) (liquidStep beta q beta)

/-- cubic_equations.py:193-249 `peng_robinson`. -/
def pengRobinson (temperature pressure tcrit pcrit : PyM (Val K)) (state : Sym) (w : K)
    (iterations : ℤ) : PyM (Val K) :=
  let p := pressure / pcrit
  let t := temperature / tcrit
  let sigma := pnum 1 + ppow (pnum ((2 : ℚ) : K)) (1 / 2)
  let epsilon := pnum 1 - ppow (pnum ((2 : ℚ) : K)) (1 / 2)
  let omega := pnum ((7780 / 100000 : ℚ) : K)
  let psi := pnum ((45724 / 100000 : ℚ) : K)
  let alpha := ppow (pnum 1 + (pnum ((37464 / 100000 : ℚ) : K) + pnum ((154226 / 100000 : ℚ) : K) * pnum w -
    pnum ((26992 / 100000 : ℚ) : K) * ppow (pnum w) 2) * (pnum 1 - ppow t (1 / 2))) 2
  let beta := omega * (p / t)
  let q := (psi * alpha) / (omega * t)
  iterateState state iterations beta q (prStep sigma epsilon beta q (pnum 1)) (prStep sigma epsilon beta q beta)

end Verif
