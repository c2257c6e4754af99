import Verif.Units.Memory
import Verif.Units.Heap

/-!
# Programs over quantities, with lists and `BaseUnit`s in memory

A program is a list of statements; every statement binds its result to a new variable.  Exceptions are caught and bind
nothing, but what was done to the memory before the exception stays.
-/

namespace Verif

section
variable {K : Type} [Zero K] [One K] [Add K] [Sub K] [Mul K] [Div K] [Neg K] [NatCast K] [RatCast K] [LinearOrder K] [PyPow K]

inductive BinOp
  | add | sub | mul | div
  deriving DecidableEq, Repr

/-- Statements. -/
inductive Cmd (K : Type)
  /-- `x = 3.0` -/
  | num (v : K)
  /-- `x = Length(3.0, "m", 2)` -/
  | unit (cls : UCls) (v : K) (unit : Sym) (exp : ℚ)
  /-- `x = MultiUnit(3.0, "kg/s")`; the empty string is the default -/
  | multi (cls : MCls) (v : K) (unit : Sym)
  /-- `x = y` -/
  | alias (y : ℕ)
  /-- `x = y + z` and so on -/
  | bin (op : BinOp) (y z : ℕ)
  /-- `x = y ** e` -/
  | pow (y : ℕ) (e : ℚ)
  /-- `x = -y` -/
  | neg (y : ℕ)
  /-- `x = y.convert_to(unit)` -/
  | convert (y : ℕ) (unit : Sym)
  /-- `y.convert_to(unit, True)` -/
  | inplace (y : ℕ) (unit : Sym)

/-- A state: the lists and base units, the objects, and for every variable its object. -/
structure Machine (K : Type) where
  mem : Mem
  objs : List (Ob K)
  vars : List ℕ

/-- The object of a variable. -/
def Machine.obj (s : Machine K) (x : ℕ) : Option (Ob K) :=
  match s.vars[x]? with
  | none => none
  | some r => s.objs[r]?

/-- What a variable looks like. -/
def Machine.get (s : Machine K) (x : ℕ) : Option (Val K) := (s.obj x).map (·.val s.mem)

/-- Bind a new variable to the result, if there is one. -/
def Machine.bind (s : Machine K) (r : Mem × PyM (Ob K)) : Machine K :=
  match r with
  | (m, .error _) => ⟨m, s.objs, s.vars⟩
  | (m, .ok o) => ⟨m, s.objs ++ [o], s.vars ++ [s.objs.length]⟩

/-- units.py:366-373 `MultiUnit.__init__`: without a unit string the two default lists (lists 0 and 1) are used. -/
def newMulti (cls : MCls) (v : K) (unit : Sym) : MemM (Ob K) :=
  if unit = [] then pure (.multi cls v 0 1)
  else do
    let (t, b) ← parseUnitsM unit
    pure (.multi cls v t b)

def binM : BinOp → Ob K → Ob K → MemM (Ob K)
  | .add => addM
  | .sub => subM
  | .mul => mulM
  | .div => divM

/-- The conversion of a quantity; `none` when the quantity itself is returned (units.py:277-278).  The lists of the
quantity are only read (they are deep copied, units.py:862), so the intermediate lists are left out. -/
def convertOpt (T : Tables K) (v : Val K) (unit : Sym) : PyM (Option (Val K)) :=
  match v with
  | .unit u => match convertObj T (.unit u) unit with
    | .error e => .error e
    | .ok .self => .ok none
    | .ok (.fresh (.unit u')) => .ok (some (.unit u'))
    | .ok (.fresh (.multi q)) => .ok (some (.multi q))
  | .multi q => match convertMulti T q unit with
    | .error e => .error e
    | .ok q' => .ok (some (.multi q'))
  | _ => .error .attributeError

/-- units.py:253-300 and 835-922 without `inplace`. -/
def convertM (T : Tables K) (o : Ob K) (unit : Sym) : MemM (Option (Ob K)) := do
  let m ← look
  match ← just (convertOpt T (o.val m) unit) with
  | none => pure none
  | some v => do
    let o' ← newOb v
    pure (some o')

/-- One statement. -/
def Machine.step (T : Tables K) (s : Machine K) : Cmd K → Machine K
  | .num v => s.bind (s.mem, .ok (.num v))
  | .unit cls v unit e => s.bind (match mkUnit cls v unit e with
    | .error err => (s.mem, .error err)
    | .ok u => (s.mem, .ok (.unit u)))
  | .multi cls v unit => s.bind (newMulti cls v unit s.mem)
  | .alias y => match s.vars[y]? with
    | none => s
    | some r => ⟨s.mem, s.objs, s.vars ++ [r]⟩
  | .bin op y z => match s.obj y, s.obj z with
    | some a, some b => s.bind (binM op a b s.mem)
    | _, _ => s
  | .pow y e => match s.obj y with
    | some a => s.bind (powM a e s.mem)
    | none => s
  | .neg y => match s.obj y with
    | some a => s.bind (negM a s.mem)
    | none => s
  | .convert y unit => match s.vars[y]?, s.obj y with
    | some r, some a => match convertM T a unit s.mem with
      | (m, .error _) => ⟨m, s.objs, s.vars⟩
      | (m, .ok none) => ⟨m, s.objs, s.vars ++ [r]⟩
      | (m, .ok (some o)) => ⟨m, s.objs ++ [o], s.vars ++ [s.objs.length]⟩
    | _, _ => s
  | .inplace y unit => match s.vars[y]?, s.obj y with
    | some r, some a => match convertM T a unit s.mem with
      | (m, .error _) => ⟨m, s.objs, s.vars⟩
      | (m, .ok none) => ⟨m, s.objs, s.vars⟩
      | (m, .ok (some o)) => ⟨m, s.objs.set r o, s.vars⟩
    | _, _ => s

/-- A program. -/
def Machine.run (T : Tables K) (s : Machine K) (p : List (Cmd K)) : Machine K := p.foldl (Machine.step T) s

/-- The start: only the two default lists exist. -/
def Machine.start : Machine K := ⟨⟨[], [[], []]⟩, [], []⟩

end

end Verif
