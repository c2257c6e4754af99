import Verif.Units.Classes

/-!
# Operators on quantities

Model of units.py lines 174-252 (operators of `Unit`), 961-1189 (operators of `MultiUnit`) and of the dispatch
rules of Python for binary operators (reflected methods).
-/

namespace Verif

/-- `MultiUnit` itself or a direct subclass (units/property_units.py, heat_transfer.py, mass_transfer.py, reactions.py,
fluids.py: all of them `pass` bodies). -/
inductive MCls
  | multi
  | sub (name : Sym)
  deriving DecidableEq, Repr

/-- units.py:366-373: an instance of `MultiUnit` or of a subclass. -/
structure MultiV (K : Type) where
  cls : MCls
  value : K
  top : UList
  bot : UList
  deriving DecidableEq, Repr

/-- Python values that occur as operands or results. `other` is any object of a class that has a base class, is neither a
number nor a quantity and defines no operators of its own with quantities (strings, lists, ...); `bare` is an instance of
`object` itself (whose class has no bases). -/
inductive Val (K : Type)
  | num (x : K)
  | unit (u : UnitV K)
  | multi (m : MultiV K)
  | none
  | other
  | bare
  deriving DecidableEq, Repr

/-- units.py:366-373 `MultiUnit.__init__` with a unit string (an empty string means no units). -/
def mkMulti {K : Type} (cls : MCls) (value : K) (unit : Sym) : PyM (MultiV K) :=
  if unit = [] then .ok ⟨cls, value, [], []⟩
  else match parseUnits unit with
    | .error e => .error e
    | .ok (t, b) => .ok ⟨cls, value, t, b⟩

section
variable {K : Type} [Zero K] [One K] [Add K] [Sub K] [Mul K] [Div K] [Neg K] [NatCast K] [RatCast K] [LinearOrder K] [PyPow K]

/-- Run a computation and wrap its result. -/
def wrapUnit (r : PyM (UnitV K)) : PyM (Val K) :=
  match r with
  | .error e => .error e
  | .ok u => .ok (.unit u)

/-! ## The reduction pipeline -/

/-- units.py:995-1004, 1023-1031, 1059-1070, 1077-1086, 1114-1123, 1148-1157: strip prefixes, deconstruct, combine (not
every caller combines both halves), cancel, simplify. -/
def reduceUnits (combTop combBot : Bool) (top bot : UList) : PyM (UList × UList × K) :=
  match deconstructPrefixes (K := K) top bot with
  | .error e => .error e
  | .ok (t, b, f) => match deconstructUnits t b with
    | .error e => .error e
    | .ok (t, b) =>
      let t := if combTop then combineUnits t else t
      let b := if combBot then combineUnits b else b
      let r := cancelUnits t b
      match simplifyUnits r.1 r.2 with
      | .error e => .error e
      | .ok (t, b) => .ok (t, b, f)

/-- units.py:1178-1182: the pipeline used by powers, without prefix stripping. -/
def reducePow (top bot : UList) : PyM (UList × UList) :=
  match deconstructUnits top bot with
  | .error e => .error e
  | .ok (t, b) =>
    let r := cancelUnits (combineUnits t) (combineUnits b)
    simplifyUnits r.1 r.2

/-- units.py:1006-1018 (and 1033-1045, 1125-1136): the result of a division. -/
def packDiv (v : K) (t b : UList) : Val K :=
  match t, b with
  | [], [] => .num v
  | [u], [] => .unit ⟨.unit, v, u.unit, u.exp⟩
  | [], [u] => .unit ⟨.unit, v, u.unit, -u.exp⟩
  | t, b => .multi ⟨.multi, v, t, b⟩

/-- units.py:1087-1095: the result of multiplying with a `Unit`. -/
def packMul (v : K) (t b : UList) : Val K :=
  match t, b with
  | [], [] => .num v
  | [u], [] => .unit ⟨.unit, v, u.unit, u.exp⟩
  | t, b => .multi ⟨.multi, v, t, b⟩

/-! ## MultiUnit -/

/-- units.py:1052-1072 `MultiUnit.__mul__` with a MultiUnit. -/
def multiMulMulti (m o : MultiV K) : PyM (Val K) :=
  match reduceUnits (K := K) true true (m.top ++ o.top) (m.bot ++ o.bot) with
  | .error e => .error e
  | .ok (t, b, f) => .ok (.multi ⟨.multi, m.value * o.value * f, t, b⟩)

/-- units.py:1073-1095 `MultiUnit.__mul__` with a Unit (the prefix factor is computed and not used). -/
def multiMulUnit (m : MultiV K) (u : UnitV K) : PyM (Val K) :=
  match reduceUnits (K := K) true true (m.top ++ [⟨u.unit, u.exp⟩]) m.bot with
  | .error e => .error e
  | .ok (t, b, _) => .ok (packMul (u.value * m.value) t b)

/-- units.py:1052-1099 `MultiUnit.__mul__`; unsupported operands: the TypeError is built but not raised. -/
def multiMul (m : MultiV K) : Val K → PyM (Val K)
  | .multi o => multiMulMulti m o
  | .unit u => multiMulUnit m u
  | .num x => .ok (.multi ⟨.multi, m.value * x, m.top, m.bot⟩)
  | .none => .ok .none
  | .other => .ok .none
  | .bare => .error .indexError

/-- units.py:984-1018 `MultiUnit.__truediv__` by a MultiUnit. -/
def multiDivMulti (m o : MultiV K) : PyM (Val K) :=
  if m.top = o.top ∧ m.bot = o.bot then
    match pyDiv m.value o.value with
    | .error e => .error e
    | .ok v => .ok (.num v)
  else match reduceUnits (K := K) true true (m.top ++ o.bot) (m.bot ++ o.top) with
    | .error e => .error e
    | .ok (t, b, f) => match pyDiv m.value o.value with
      | .error e => .error e
      | .ok v => .ok (packDiv (v * f) t b)

/-- units.py:1019-1045 `MultiUnit.__truediv__` by a Unit (the numerator is not combined). -/
def multiDivUnit (m : MultiV K) (u : UnitV K) : PyM (Val K) :=
  match reduceUnits (K := K) false true m.top (m.bot ++ [⟨u.unit, u.exp⟩]) with
  | .error e => .error e
  | .ok (t, b, f) => match pyDiv m.value u.value with
    | .error e => .error e
    | .ok v => .ok (packDiv (v * f) t b)

/-- units.py:984-1050 `MultiUnit.__truediv__`; unsupported operands: the TypeError is built but not raised. -/
def multiDiv (m : MultiV K) : Val K → PyM (Val K)
  | .multi o => multiDivMulti m o
  | .unit u => multiDivUnit m u
  | .num x => match pyDiv m.value x with
    | .error e => .error e
    | .ok v => .ok (.multi ⟨.multi, v, m.top, m.bot⟩)
  | .none => .ok .none
  | .other => .ok .none
  | .bare => .error .indexError

/-- units.py:1104-1136 `MultiUnit.__rtruediv__` with a Unit numerator (denominator not combined, prefix factor not
used). -/
def unitDivMulti (u : UnitV K) (m : MultiV K) : PyM (Val K) :=
  match reduceUnits (K := K) true false (m.bot ++ [⟨u.unit, u.exp⟩]) m.top with
  | .error e => .error e
  | .ok (t, b, _) => match pyDiv u.value m.value with
    | .error e => .error e
    | .ok v => .ok (packDiv v t b)

/-- units.py:1101-1140 `MultiUnit.__rtruediv__`. -/
def multiRdiv (m : MultiV K) : Val K → PyM (Val K)
  | .num x => match pyDiv x m.value with
    | .error e => .error e
    | .ok v => .ok (.multi ⟨.multi, v, m.bot, m.top⟩)
  | .unit u => unitDivMulti u m
  | .bare => .error .indexError
  | _ => .error .typeError

/-- units.py:1141-1168 `MultiUnit.__rmul__`. -/
def multiRmul (m : MultiV K) : Val K → PyM (Val K)
  | .num x => .ok (.multi ⟨.multi, x * m.value, m.top, m.bot⟩)
  | .unit u => multiMulUnit m u
  | .bare => .error .indexError
  | _ => .error .typeError

/-- units.py:968-975 `MultiUnit.__add__`. -/
def multiAdd (m : MultiV K) : Val K → PyM (Val K)
  | .multi o =>
    if m.cls = o.cls then
      if m.top = o.top ∧ m.bot = o.bot then .ok (.multi ⟨.multi, m.value + o.value, m.top, m.bot⟩)
      else .error .typeError
    else .error .typeError
  | _ => .error .typeError

/-- units.py:976-983 `MultiUnit.__sub__`. -/
def multiSub (m : MultiV K) : Val K → PyM (Val K)
  | .multi o =>
    if m.top = o.top ∧ m.bot = o.bot then .ok (.multi ⟨.multi, m.value - o.value, m.top, m.bot⟩)
    else .error .typeError
  | .bare => .error .indexError
  | _ => .error .typeError

/-- units.py:1169-1186 `MultiUnit.__pow__` (exponents are rationals in the model). -/
def multiPow (m : MultiV K) (e : ℚ) : PyM (Val K) :=
  match reducePow (m.top.map (·.pow e)) (m.bot.map (·.pow e)) with
  | .error err => .error err
  | .ok (t, b) => match PyPow.pow m.value e with
    | .error err => .error err
    | .ok v => .ok (.multi ⟨.multi, v, t, b⟩)

/-- units.py:1188-1189 `MultiUnit.__neg__`. -/
def multiNeg (m : MultiV K) : MultiV K := ⟨m.cls, -m.value, m.top, m.bot⟩

/-- Equality of the Python sets `set(xs) == set(ys)`. -/
def setEq (xs ys : UList) : Bool :=
  xs.all (fun x => decide (x ∈ ys)) && ys.all (fun y => decide (y ∈ xs))

/-- units.py:961-967 `MultiUnit.__eq__`. -/
def multiEq (m o : MultiV K) : Bool :=
  decide (m.cls = o.cls) && decide (m.value = o.value) && setEq m.top o.top && setEq m.bot o.bot

/-! ## Unit -/

/-- `isinstance(other, self.__class__)` for two units. -/
def isInstance (o self : UCls) : Prop := self = .unit ∨ o = self

instance (o self : UCls) : Decidable (isInstance o self) := by unfold isInstance; infer_instance

/-- units.py:187-196 `Unit.__add__`; adding a number forgets the exponent. -/
def unitAdd (u : UnitV K) : Val K → PyM (Val K)
  | .unit o =>
    if isInstance o.cls u.cls then
      if u.unit = o.unit ∧ u.exp = o.exp then wrapUnit (mkUnit u.cls (u.value + o.value) u.unit u.exp)
      else .error .typeError
    else .error .typeError
  | .num x => wrapUnit (mkUnit u.cls (u.value + x) u.unit 1)
  | _ => .error .typeError

/-- units.py:197-206 `Unit.__sub__`. -/
def unitSub (u : UnitV K) : Val K → PyM (Val K)
  | .unit o =>
    if isInstance o.cls u.cls then
      if u.unit = o.unit ∧ u.exp = o.exp then wrapUnit (mkUnit u.cls (u.value - o.value) u.unit u.exp)
      else .error .typeError
    else .error .typeError
  | .num x => wrapUnit (mkUnit u.cls (u.value - x) u.unit 1)
  | _ => .error .typeError

/-- units.py:207-223 `Unit.__truediv__`. -/
def unitDiv (u : UnitV K) : Val K → PyM (Val K)
  | .unit o =>
    match pyDiv u.value o.value with
    | .error e => .error e
    | .ok v =>
      if u.unit = o.unit then
        if u.exp - o.exp = 0 then .ok (.num v)
        else wrapUnit (mkUnit u.cls v u.unit (u.exp - o.exp))
      else .ok (.multi ⟨.multi, v, [⟨u.unit, u.exp⟩], [⟨o.unit, o.exp⟩]⟩)
  | .num x => match pyDiv u.value x with
    | .error e => .error e
    | .ok v => wrapUnit (mkUnit u.cls v u.unit u.exp)
  | .multi m => unitDivMulti u m
  | .bare => .error .indexError
  | _ => .error .typeError

/-- units.py:224-237 `Unit.__mul__`; different units or classes: exponents are forgotten (line 231); number: exponent is
forgotten (line 235). -/
def unitMul (u : UnitV K) : Val K → PyM (Val K)
  | .unit o =>
    if u.cls = o.cls ∧ u.unit = o.unit then
      wrapUnit (mkUnit u.cls (u.value * o.value) u.unit (u.exp + o.exp))
    else .ok (.multi ⟨.multi, u.value * o.value, [⟨u.unit, 1⟩, ⟨o.unit, 1⟩], []⟩)
  | .multi m => multiMulUnit m u
  | .num x => wrapUnit (mkUnit u.cls (u.value * x) u.unit 1)
  | .bare => .error .indexError
  | _ => .error .typeError

/-- units.py:239-243 `Unit.__rmul__`. -/
def unitRmul (u : UnitV K) : Val K → PyM (Val K)
  | .num x => wrapUnit (mkUnit u.cls (u.value * x) u.unit 1)
  | _ => .error .typeError

/-- units.py:245-249 `Unit.__pow__`. -/
def unitPow (u : UnitV K) (e : ℚ) : PyM (Val K) :=
  match PyPow.pow u.value e with
  | .error err => .error err
  | .ok v => wrapUnit (mkUnit u.cls v u.unit (u.exp * e))

/-- units.py:251-252 `Unit.__neg__`. -/
def unitNeg (u : UnitV K) : PyM (UnitV K) := mkUnit u.cls (-u.value) u.unit u.exp

/-- units.py:180-186 `Unit.__eq__` as a method. -/
def unitEqMethod (u o : UnitV K) : Bool :=
  (decide (u.cls = o.cls) || decide (o.cls = .unit)) && decide (u.value = o.value) &&
    decide (u.unit = o.unit) && decide (u.exp = o.exp)

/-- The operator `==` on two units: the method of the right operand is tried first when its class is a proper subclass of
the class of the left operand. -/
def unitEq (u o : UnitV K) : Bool :=
  if u.cls = .unit ∧ o.cls ≠ .unit then unitEqMethod o u else unitEqMethod u o

/-! ## Python operators -/

/-- `a + b`. Neither class defines `__radd__`. -/
def Val.add : Val K → Val K → PyM (Val K)
  | .num x, .num y => .ok (.num (x + y))
  | .unit u, b => unitAdd u b
  | .multi m, b => multiAdd m b
  | _, _ => .error .typeError

/-- `a - b`. -/
def Val.sub : Val K → Val K → PyM (Val K)
  | .num x, .num y => .ok (.num (x - y))
  | .unit u, b => unitSub u b
  | .multi m, b => multiSub m b
  | _, _ => .error .typeError

/-- `a * b`. -/
def Val.mul : Val K → Val K → PyM (Val K)
  | .num x, .num y => .ok (.num (x * y))
  | .unit u, b => unitMul u b
  | .multi m, b => multiMul m b
  | a, .unit u => unitRmul u a
  | a, .multi m => multiRmul m a
  | _, _ => .error .typeError

/-- `a / b`. `Unit` has no `__rtruediv__`. -/
def Val.div : Val K → Val K → PyM (Val K)
  | .num x, .num y => match pyDiv x y with
    | .error e => .error e
    | .ok v => .ok (.num v)
  | .unit u, b => unitDiv u b
  | .multi m, b => multiDiv m b
  | a, .multi m => multiRdiv m a
  | _, _ => .error .typeError

/-- `a ** e` for a number `e`. -/
def Val.pow : Val K → ℚ → PyM (Val K)
  | .num x, e => match (PyPow.pow x e : PyM K) with
    | .error err => .error err
    | .ok v => .ok (.num v)
  | .unit u, e => unitPow u e
  | .multi m, e => multiPow m e
  | _, _ => .error .typeError

/-- `-a`. -/
def Val.neg : Val K → PyM (Val K)
  | .num x => .ok (.num (-x))
  | .unit u => wrapUnit (unitNeg u)
  | .multi m => .ok (.multi (multiNeg m))
  | _ => .error .typeError

/-- `a == b` where at least one operand is a quantity; quantities of different kinds are never equal. -/
def Val.eq : Val K → Val K → Bool
  | .unit u, .unit o => unitEq u o
  | .multi m, .multi o => multiEq m o
  | .num x, .num y => decide (x = y)
  | .none, .none => true
  | _, _ => false

end

end Verif
