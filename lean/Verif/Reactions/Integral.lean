import Verif.Py
import Mathlib.Analysis.SpecialFunctions.Pow.Real

/-!
# `integral_method`, cheme_calculations/reactions/reaction_parameters.py:18-63

Exact real arithmetic.  The transformed data are numpy floats: division by zero gives `inf` (with a warning), a negative
base with a fractional exponent gives `nan`.  Negative zero is not modelled.
-/

namespace Verif

/-- A numpy float in exact arithmetic. -/
inductive NpF
  | fin (x : ℝ)
  | inf
  | nan

open Classical in
/-- `x ** p` for a positive exponent. -/
noncomputable def NpF.pow : NpF → ℝ → NpF
  | .fin x, p => if 0 ≤ x ∨ ∃ n : ℤ, p = n then .fin (x ^ p) else .nan
  | .inf, _ => .inf
  | .nan, _ => .nan

/-- `1 / x`. -/
noncomputable def NpF.inv : NpF → NpF
  | .fin x => if x = 0 then .inf else .fin (1 / x)
  | .inf => .fin 0
  | .nan => .nan

/-- `x / c` for a positive number `c`. -/
noncomputable def NpF.divBy : NpF → ℝ → NpF
  | .fin x, c => .fin (x / c)
  | .inf, _ => .inf
  | .nan, _ => .nan

/-- `math.log`. -/
noncomputable def NpF.log : NpF → PyM NpF
  | .fin x => if 0 < x then .ok (.fin (Real.log x)) else .error .valueError
  | .inf => .ok .inf
  | .nan => .ok .nan

/-- The finite values, if all are. -/
def allFin : List NpF → Option (List ℝ)
  | [] => some []
  | .fin x :: r => (allFin r).map (x :: ·)
  | _ :: _ => none

noncomputable def mean (l : List ℝ) : ℝ := l.sum / l.length

/-- Sum of products of deviations from the means. -/
noncomputable def coSum (a b : List ℝ) : ℝ := (List.zipWith (fun x y => (x - mean a) * (y - mean b)) a b).sum

/-- reaction_parameters.py:43-46 `get_r_squared`: `np.corrcoef(list1, list2)[0, 1] ** 2`.  ValueError for different lengths,
nan (`none`) when a variance is zero, a list is empty or a value is not finite. -/
noncomputable def rSquared (a : List ℝ) (b : List NpF) : PyM (Option ℝ) :=
  if a.length ≠ b.length then .error .valueError
  else match allFin b with
    | none => .ok none
    | some b =>
      if coSum a a * coSum b b = 0 then .ok none
      else .ok (some (coSum a b ^ 2 / (coSum a a * coSum b b)))

/-- Apply a Python function to the elements from left to right. -/
def mapM' {α β : Type} (f : α → PyM β) : List α → PyM (List β)
  | [] => .ok []
  | x :: xs => match f x with
    | .error e => .error e
    | .ok y => match mapM' f xs with
      | .error e => .error e
      | .ok ys => .ok (y :: ys)

/-- reaction_parameters.py:51-57, the new value of `reaction_data`. -/
noncomputable def transform (i : ℝ) (data : List NpF) : PyM (List NpF) :=
  if i = 1 then mapM' NpF.log data
  else if i < 1 ∧ i > 0 then .ok (data.map fun x => (x.pow (-i + 1)).divBy (-i + 1))
  else if i ≥ 1 then .ok (data.map fun x => (x.pow (i - 1)).inv)
  else .ok data

/-- reaction_parameters.py:50-61, the loop; `best` and `order` are the local variables. -/
noncomputable def integralLoop (time : List ℝ) : List ℝ → List NpF → ℝ → ℝ → PyM (ℝ × ℝ)
  | [], _, order, best => .ok (order, best)
  | i :: is, data, order, best => match transform i data with
    | .error e => .error e
    | .ok data' => match rSquared time data' with
      | .error e => .error e
      | .ok (some r) => if r > best then integralLoop time is data' i r else integralLoop time is data' order best
      | .ok none => integralLoop time is data' order best

/-- `np.arange(start, stop, step)` in exact arithmetic; ZeroDivisionError for step 0. -/
noncomputable def arange (start stop step : ℝ) : PyM (List ℝ) :=
  if step = 0 then .error .zeroDivision
  else .ok ((List.range ⌈(stop - start) / step⌉.toNat).map fun i : ℕ => start + i * step)

/-- reaction_parameters.py:18-63 `integral_method`; the result is (order, r_squared). -/
noncomputable def integralMethod (time data : List ℝ) (start stop step : ℝ) : PyM (ℝ × ℝ) :=
  match arange start stop step with
  | .error e => .error e
  | .ok is => integralLoop time is (data.map .fin) 0 0

end Verif
