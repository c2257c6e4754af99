import Verif.Units.Convert

/-!
# Objects and references: `convert_to` with and without `inplace`

A heap of quantities, variables bound to references.  The lists of base units inside a compound quantity are part of the
object: two objects may share such a list in Python, but the code only ever mutates deep copies (units.py:570-571,
644-653, 862, 992-993, 1020-1182) and in-place conversion rebinds the attributes (371-373), so sharing is not observable.
Units/Memory and Units/Programs model the lists as objects, and C80 proves it.
-/

namespace Verif

variable {K : Type} [Zero K] [One K] [Add K] [Sub K] [Mul K] [Div K] [Neg K] [NatCast K] [RatCast K] [LinearOrder K] [PyPow K]

/-- A quantity object. -/
inductive Obj (K : Type)
  | unit (u : UnitV K)
  | multi (m : MultiV K)
  deriving DecidableEq

/-- What a call of `convert_to` without `inplace` returns: the object itself or a new one. -/
inductive ConvResult (K : Type)
  | self
  | fresh (o : Obj K)

/-- units.py:253-300 and 835-922, `convert_to(unit)`.  A simple quantity already in the unit returns itself (277-278). -/
def convertObj (T : Tables K) : Obj K → Sym → PyM (ConvResult K)
  | .unit u, target => match parseTarget u.unit target with
    | .error e => .error e
    | .ok (tgt, ret, e) =>
      if u.unit = tgt then .ok .self
      else match convertParsed T u tgt ret e with
        | .error err => .error err
        | .ok v => .ok (.fresh (.unit v))
  | .multi m, target => match convertMulti T m target with
    | .error e => .error e
    | .ok m' => .ok (.fresh (.multi m'))

/-- `convert_to(unit, True)`: the new state of the object. -/
def convertInplace (T : Tables K) : Obj K → Sym → PyM (Obj K)
  | .unit u, target => match convertUnit T u target with
    | .error e => .error e
    | .ok v => .ok (.unit v)
  | .multi m, target => match convertMulti T m target with
    | .error e => .error e
    | .ok m' => .ok (.multi m')

/-- The store: objects, and the references held by the variables (variable `i` holds `vars[i]`). -/
structure Store (K : Type) where
  heap : List (Obj K)
  vars : List ℕ

/-- A statement of a history.  Every assignment binds a new variable; exceptions are caught and leave the store alone. -/
inductive Stmt (K : Type)
  /-- `x = Cls(...)` -/
  | new (o : Obj K)
  /-- `x = y.convert_to(unit)` -/
  | convert (y : ℕ) (unit : Sym)
  /-- `y.convert_to(unit, True)` -/
  | inplace (y : ℕ) (unit : Sym)

/-- The object a variable refers to. -/
def Store.get (s : Store K) (x : ℕ) : Option (Obj K) :=
  match s.vars[x]? with
  | none => none
  | some r => s.heap[r]?

/-- One statement. -/
def Store.step (T : Tables K) (s : Store K) : Stmt K → Store K
  | .new o => ⟨s.heap ++ [o], s.vars ++ [s.heap.length]⟩
  | .convert y unit => match s.vars[y]? with
    | none => s
    | some r => match s.heap[r]? with
      | none => s
      | some o => match convertObj T o unit with
        | .error _ => s
        | .ok .self => ⟨s.heap, s.vars ++ [r]⟩
        | .ok (.fresh o') => ⟨s.heap ++ [o'], s.vars ++ [s.heap.length]⟩
  | .inplace y unit => match s.vars[y]? with
    | none => s
    | some r => match s.heap[r]? with
      | none => s
      | some o => match convertInplace T o unit with
        | .error _ => s
        | .ok o' => ⟨s.heap.set r o', s.vars⟩

/-- A history. -/
def Store.run (T : Tables K) (s : Store K) (h : List (Stmt K)) : Store K := h.foldl (Store.step T) s

/-- The store at the start. -/
def Store.empty : Store K := ⟨[], []⟩

end Verif
