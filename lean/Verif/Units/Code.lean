import Verif.Units.Float
import Verif.Units.Convert
import Verif.Spec.FloatMath

/-!
# The formulas of the library as programs over any number type

The formulas that call the `math` module are modelled over the real numbers.  To run them over floating point numbers as
well they are written once more as expression trees, and the tree is run over any number type with the functions of the
`math` module.  `Props/FloatFormula` proves that the run over the real numbers is the formula itself.
-/

namespace Verif

/-- The functions and the constant of Python's `math` module for a number type. -/
class PyMath (K : Type) where
  exp : K → K
  log : K → K
  sin : K → K
  erf : K → K
  erfc : K → K
  pi : K

noncomputable instance : PyMath ℝ where
  exp := Real.exp
  log := Real.log
  sin := Real.sin
  erf := erf
  erfc x := 1 - erf x
  pi := Real.pi

noncomputable instance (M : FloatMath) : PyMath (Fl M.toFloatArith) where
  exp x := ⟨M.exp x.val⟩
  log x := ⟨M.log x.val⟩
  sin x := ⟨M.sin x.val⟩
  erf x := ⟨M.erf x.val⟩
  erfc x := ⟨M.erfc x.val⟩
  pi := ⟨M.pi⟩

/-- The functions of the `math` module used by the library. -/
inductive Fn
  | exp | log | sin | erf | erfc

/-- A Python expression over quantities with the functions of the `math` module. -/
inductive Code
  | var (i : ℕ)
  | lit (q : ℚ)
  | pi
  /-- a constant of utility/constants.py or a quantity written in the formula -/
  | const (cls : MCls) (q : ℚ) (unit : Sym)
  | mul (a b : Code)
  | div (a b : Code)
  | add (a b : Code)
  | sub (a b : Code)
  | neg (a : Code)
  | pow (a : Code) (q : ℚ)
  | fn (f : Fn) (a : Code)
  | conv (a : Code) (target : Sym)

section
variable {K : Type} [Zero K] [One K] [Add K] [Sub K] [Mul K] [Div K] [Neg K] [NatCast K] [RatCast K] [LinearOrder K]
  [PyPow K] [PyMath K]

/-- `math.f(x)`: numbers only; `log` raises ValueError unless its argument is positive. -/
def Fn.call (f : Fn) : Val K → PyM (Val K)
  | .num x => match f with
    | .exp => .ok (.num (PyMath.exp x))
    | .log => if 0 < x then .ok (.num (PyMath.log x)) else .error .valueError
    | .sin => .ok (.num (PyMath.sin x))
    | .erf => .ok (.num (PyMath.erf x))
    | .erfc => .ok (.num (PyMath.erfc x))
  | _ => .error .typeError

/-- `x.convert_to(target)`, methods of `Unit` and `MultiUnit`; numbers have no such method. -/
def callConvert (x : Val K) (target : Sym) : PyM (Val K) :=
  match x with
  | .unit u => wrapUnit (convertUnit stdTables u target)
  | .multi m => match convertMulti stdTables m target with
    | .error e => .error e
    | .ok w => .ok (.multi w)
  | _ => .error .attributeError

/-- A compound quantity written in the source. -/
def constant (cls : MCls) (q : ℚ) (unit : Sym) : PyM (Val K) :=
  match mkMulti cls (q : K) unit with
  | .error e => .error e
  | .ok m => .ok (.multi m)

/-- The expression run on the arguments `env`. -/
def Code.run (env : ℕ → Val K) : Code → PyM (Val K)
  | .var i => .ok (env i)
  | .lit q => pnum (q : K)
  | .pi => pnum PyMath.pi
  | .const c q u => constant c q u
  | .mul a b => a.run env * b.run env
  | .div a b => a.run env / b.run env
  | .add a b => a.run env + b.run env
  | .sub a b => a.run env - b.run env
  | .neg a => -a.run env
  | .pow a q => ppow (a.run env) q
  | .fn f a => lift1 f.call (a.run env)
  | .conv a t => lift1 (fun x => callConvert x t) (a.run env)

end

instance : Add Code := ⟨.add⟩
instance : Sub Code := ⟨.sub⟩
instance : Mul Code := ⟨.mul⟩
instance : Div Code := ⟨.div⟩
instance : Neg Code := ⟨.neg⟩

end Verif
