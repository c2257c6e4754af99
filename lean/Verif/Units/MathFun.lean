import Verif.Units.Expr
import Verif.Units.Real
import Mathlib.Analysis.SpecialFunctions.Trigonometric.Basic
import Mathlib.MeasureTheory.Integral.IntervalIntegral.Basic
import Mathlib.MeasureTheory.Measure.Haar.OfBasis

/-!
# The functions of Python's `math` module used by the library

They accept plain numbers only: on a quantity they raise TypeError ("must be real number").  Exact real arithmetic;
OverflowError for huge arguments of `exp` is not modelled.
-/

namespace Verif

/-- `v == None`, see equation_solving.py:37 (a quantity is never equal to None). -/
def Val.isNone {K : Type} : Val K → Bool
  | .none => true
  | _ => false

/-- `math.exp`. -/
noncomputable def pyExp : PyM (Val ℝ) → PyM (Val ℝ) := lift1 fun
  | .num x => .ok (.num (Real.exp x))
  | _ => .error .typeError

/-- `math.log` with one argument; ValueError ("math domain error") unless positive. -/
noncomputable def pyLog : PyM (Val ℝ) → PyM (Val ℝ) := lift1 fun
  | .num x => if 0 < x then .ok (.num (Real.log x)) else .error .valueError
  | _ => .error .typeError

/-- `math.sin`. -/
noncomputable def pySin : PyM (Val ℝ) → PyM (Val ℝ) := lift1 fun
  | .num x => .ok (.num (Real.sin x))
  | _ => .error .typeError

/-- The error function: `2/√π` times the integral of `exp(-t²)` from 0 to `x`. -/
noncomputable def erf (x : ℝ) : ℝ := 2 / Real.sqrt Real.pi * ∫ t in (0 : ℝ)..x, Real.exp (-t ^ 2)

/-- `math.erf`. -/
noncomputable def pyErf : PyM (Val ℝ) → PyM (Val ℝ) := lift1 fun
  | .num x => .ok (.num (erf x))
  | _ => .error .typeError

/-- `math.erfc`. -/
noncomputable def pyErfc : PyM (Val ℝ) → PyM (Val ℝ) := lift1 fun
  | .num x => .ok (.num (1 - erf x))
  | _ => .error .typeError

/-- `math.pi`. -/
noncomputable def pyPi : PyM (Val ℝ) := pnum Real.pi

theorem pyExp_num (x : ℝ) : pyExp (.ok (.num x)) = .ok (.num (Real.exp x)) := rfl
theorem pyExp_unit (u : UnitV ℝ) : pyExp (.ok (.unit u)) = .error .typeError := rfl
theorem pyExp_multi (u : MultiV ℝ) : pyExp (.ok (.multi u)) = .error .typeError := rfl
theorem pyExp_err (e : Err) : pyExp (.error e) = .error e := rfl
theorem pyLog_num {x : ℝ} (h : 0 < x) : pyLog (.ok (.num x)) = .ok (.num (Real.log x)) := by
  simp [pyLog, lift1, h]
theorem pyLog_unit (u : UnitV ℝ) : pyLog (.ok (.unit u)) = .error .typeError := rfl
theorem pyLog_multi (u : MultiV ℝ) : pyLog (.ok (.multi u)) = .error .typeError := rfl
theorem pyLog_err (e : Err) : pyLog (.error e) = .error e := rfl
theorem pySin_num (x : ℝ) : pySin (.ok (.num x)) = .ok (.num (Real.sin x)) := rfl
theorem pyErf_num (x : ℝ) : pyErf (.ok (.num x)) = .ok (.num (erf x)) := rfl
theorem pyErfc_num (x : ℝ) : pyErfc (.ok (.num x)) = .ok (.num (1 - erf x)) := rfl

/-- `acc = 0; for n in range(count): acc += term(n)`. -/
def pySum {K : Type} [Zero K] [One K] [Add K] [Sub K] [Mul K] [Div K] [Neg K] [NatCast K] [RatCast K] [LinearOrder K] [PyPow K] (count : ℤ) (term : ℕ → PyM (Val K)) : PyM (Val K) :=
  (List.range count.toNat).foldl (fun acc n => acc + term n) (pnum 0)

theorem pySum_num (count : ℤ) (term : ℕ → PyM (Val ℝ)) (f : ℕ → ℝ) (h : ∀ n, term n = .ok (.num (f n))) :
    pySum count term = .ok (.num (∑ n ∈ Finset.range count.toNat, f n)) := by
  unfold pySum
  induction count.toNat with
  | zero => rfl
  | succ m ih => rw [List.range_succ, List.foldl_append, ih, Finset.sum_range_succ]; simp [h, ok_add, Val.add]

theorem pySin_err (e : Err) : pySin (.error e) = .error e := rfl

end Verif
