import Verif.Units.Convert

/-!
# Python expressions over quantities

The library's formulas are Python expressions built from operators on quantities and numbers.  A Python expression denotes
an element of `PyM (Val K)`; operators evaluate the left operand, then the right operand, then dispatch (`Val.mul`, ...).
-/

namespace Verif

set_option linter.unusedSectionVars false

section
variable {K : Type}

/-- Evaluate the left operand, then the right one, then apply the operator. -/
def lift2 (f : Val K → Val K → PyM (Val K)) (a b : PyM (Val K)) : PyM (Val K) :=
  match a with
  | .error e => .error e
  | .ok x => match b with
    | .error e => .error e
    | .ok y => f x y

/-- Evaluate the operand, then apply the function. -/
def lift1 (f : Val K → PyM (Val K)) (a : PyM (Val K)) : PyM (Val K) :=
  match a with
  | .error e => .error e
  | .ok x => f x

/-- `Name(v, "unit")` for a subclass of `MultiUnit`. -/
def qM (name : Sym) (v : K) (unit : Sym) : PyM (Val K) :=
  match mkMulti (.sub name) v unit with
  | .error e => .error e
  | .ok m => .ok (.multi m)

/-- `MultiUnit(v, "unit")`. -/
def qMulti (v : K) (unit : Sym) : PyM (Val K) :=
  match mkMulti .multi v unit with
  | .error e => .error e
  | .ok m => .ok (.multi m)

/-- `Cls(v, "unit", exponent)` for `Unit` or a subclass. -/
def qU (cls : UCls) (v : K) (unit : Sym) (exp : ℚ := 1) : PyM (Val K) :=
  match mkUnit cls v unit exp with
  | .error e => .error e
  | .ok m => .ok (.unit m)

/-- The literal `None`. -/
def pNone : PyM (Val K) := .ok .none

/-- `f(a, b, ...)`: evaluate the arguments from left to right, then call. -/
def pcall (f : List (Val K) → PyM (Val K)) (args : List (PyM (Val K))) : PyM (Val K) :=
  match mapPy (fun a => a) args with
  | .error e => .error e
  | .ok vs => f vs

/-- A number literal or float variable. -/
def pnum (x : K) : PyM (Val K) := .ok (.num x)

variable [Zero K] [One K] [Add K] [Sub K] [Mul K] [Div K] [Neg K] [NatCast K] [RatCast K] [LinearOrder K] [PyPow K]

instance : Mul (PyM (Val K)) := ⟨lift2 Val.mul⟩
instance : Div (PyM (Val K)) := ⟨lift2 Val.div⟩
instance : Add (PyM (Val K)) := ⟨lift2 Val.add⟩
instance : Sub (PyM (Val K)) := ⟨lift2 Val.sub⟩
instance : Neg (PyM (Val K)) := ⟨lift1 Val.neg⟩

/-- `a ** e` for a number literal `e`. -/
def ppow (a : PyM (Val K)) (e : ℚ) : PyM (Val K) := lift1 (fun x => x.pow e) a

theorem ok_mul (a b : Val K) : (Except.ok a * Except.ok b : PyM (Val K)) = a.mul b := rfl
theorem ok_div (a b : Val K) : (Except.ok a / Except.ok b : PyM (Val K)) = a.div b := rfl
theorem ok_add (a b : Val K) : (Except.ok a + Except.ok b : PyM (Val K)) = a.add b := rfl
theorem ok_sub (a b : Val K) : (Except.ok a - Except.ok b : PyM (Val K)) = a.sub b := rfl
theorem ok_neg (a : Val K) : (-(Except.ok a) : PyM (Val K)) = a.neg := rfl
theorem ok_pow (a : Val K) (e : ℚ) : ppow (Except.ok a : PyM (Val K)) e = a.pow e := rfl
theorem err_mul (e : Err) (b : PyM (Val K)) : (Except.error e * b : PyM (Val K)) = .error e := rfl
theorem err_div (e : Err) (b : PyM (Val K)) : (Except.error e / b : PyM (Val K)) = .error e := rfl
theorem err_add (e : Err) (b : PyM (Val K)) : (Except.error e + b : PyM (Val K)) = .error e := rfl
theorem err_sub (e : Err) (b : PyM (Val K)) : (Except.error e - b : PyM (Val K)) = .error e := rfl
theorem err_neg (e : Err) : (-(Except.error e) : PyM (Val K)) = .error e := rfl
theorem err_pow (e : Err) (q : ℚ) : ppow (Except.error e : PyM (Val K)) q = .error e := rfl
theorem mul_err (a : Val K) (e : Err) : (Except.ok a * Except.error e : PyM (Val K)) = .error e := rfl
theorem div_err (a : Val K) (e : Err) : (Except.ok a / Except.error e : PyM (Val K)) = .error e := rfl
theorem add_err (a : Val K) (e : Err) : (Except.ok a + Except.error e : PyM (Val K)) = .error e := rfl
theorem sub_err (a : Val K) (e : Err) : (Except.ok a - Except.error e : PyM (Val K)) = .error e := rfl

end

end Verif
