import Verif.Units.Programs
import Verif.Units.Code

/-!
# Function bodies run on objects in memory

`Units/Programs` runs the statements of a user on objects in memory.  Here the functions of the library are run in the same
way: a body is a sequence of Python statements over local variables, which refer to objects; parameters refer to the
objects of the caller.  Every operator makes a new object; an in-place conversion changes the object a local variable
refers to, whoever else refers to it.  A module constant is a new object each time it is used (its attributes are never
assigned to, C80).  A local variable that is read before it is assigned is None (no body of the library does that).
-/

namespace Verif

section
variable {K : Type} [Zero K] [One K] [Add K] [Sub K] [Mul K] [Div K] [Neg K] [NatCast K] [RatCast K] [LinearOrder K]
  [PyPow K] [PyMath K]

/-- A function body. -/
inductive Body (K : Type)
  /-- `return e` -/
  | ret (c : Code)
  /-- `x = e` -/
  | assign (x : ℕ) (c : Code) (rest : Body K)
  /-- `e` as a statement: evaluated and dropped -/
  | drop (c : Code) (rest : Body K)
  /-- `if …: raise …`; `check_units(x, …)` -/
  | guard (test : (ℕ → Val K) → PyM Unit) (rest : Body K)
  /-- `if …: … else: …` -/
  | ite (test : (ℕ → Val K) → Bool) (a b : Body K)
  /-- `x.convert_to(unit, True)` -/
  | inplace (x : ℕ) (unit : (ℕ → Val K) → Sym) (rest : Body K)
  /-- `return Cls(x._value, top_half=x._top_half, bottom_half=x._bottom_half)` -/
  | recast (x : ℕ) (cls : MCls)
  /-- `return Cls(f(x._value), unit)` or an exception -/
  | build (x : ℕ) (f : Val K → PyM (Sym × K × Sym))

/-- A new object, no variable. -/
def Machine.alloc (s : Machine K) (r : Mem × PyM (Ob K)) : Machine K × PyM ℕ :=
  match r with
  | (m, .error e) => (⟨m, s.objs, s.vars⟩, .error e)
  | (m, .ok o) => (⟨m, s.objs ++ [o], s.vars⟩, .ok s.objs.length)

/-- The object with a number. -/
def Machine.at (s : Machine K) (r : ℕ) : Ob K := s.objs.getD r .none

/-- What the object looks like. -/
def Machine.look (s : Machine K) (r : ℕ) : Val K := (s.at r).val s.mem

/-- Local variables. -/
abbrev Locals := ℕ → Option ℕ

/-- What the local variables look like. -/
def Machine.env (s : Machine K) (l : Locals) : ℕ → Val K := fun i => match l i with
  | some r => s.look r
  | none => .none

/-- Evaluate an expression: the object it gives. -/
def Code.exec (l : Locals) : Code → Machine K → Machine K × PyM ℕ
  | .var i, s => match l i with
    | some r => (s, .ok r)
    | none => s.alloc (s.mem, .ok .none)
  | .lit q, s => s.alloc (s.mem, .ok (.num (q : K)))
  | .pi, s => s.alloc (s.mem, .ok (.num PyMath.pi))
  | .const c q u, s => s.alloc (newMulti c (q : K) u s.mem)
  | .mul a b, s => exec2 (a.exec l) (b.exec l) (binM .mul) s
  | .div a b, s => exec2 (a.exec l) (b.exec l) (binM .div) s
  | .add a b, s => exec2 (a.exec l) (b.exec l) (binM .add) s
  | .sub a b, s => exec2 (a.exec l) (b.exec l) (binM .sub) s
  | .neg a, s => exec1 (a.exec l) negM s
  | .pow a q, s => exec1 (a.exec l) (fun x => powM x q) s
  | .fn f a, s => exec1 (a.exec l) (fun x => do
      let m ← look
      let v ← just (f.call (x.val m))
      newOb v) s
  | .conv a t, s => match a.exec l s with
    | (s, .error e) => (s, .error e)
    | (s, .ok r) => match convertM stdTables (s.at r) t s.mem with
      | (m, .error e) => (⟨m, s.objs, s.vars⟩, .error e)
      | (m, .ok none) => (⟨m, s.objs, s.vars⟩, .ok r)
      | (m, .ok (some o)) => s.alloc (m, .ok o)
where
  /-- Evaluate the operand, then the operator. -/
  exec1 (a : Machine K → Machine K × PyM ℕ) (op : Ob K → MemM (Ob K)) (s : Machine K) : Machine K × PyM ℕ :=
    match a s with
    | (s, .error e) => (s, .error e)
    | (s, .ok x) => s.alloc (op (s.at x) s.mem)
  /-- Evaluate the operands from left to right, then the operator. -/
  exec2 (a b : Machine K → Machine K × PyM ℕ) (op : Ob K → Ob K → MemM (Ob K)) (s : Machine K) :
      Machine K × PyM ℕ :=
    match a s with
    | (s, .error e) => (s, .error e)
    | (s, .ok x) => match b s with
      | (s, .error e) => (s, .error e)
      | (s, .ok y) => s.alloc (op (s.at x) (s.at y) s.mem)

/-- Assignment to a local variable. -/
def Locals.set (l : Locals) (x r : ℕ) : Locals := fun i => if i = x then some r else l i

/-- Run a body: the object returned. -/
def Body.exec : Body K → Locals → Machine K → Machine K × PyM ℕ
  | .ret c, l, s => c.exec l s
  | .assign x c rest, l, s => match c.exec l s with
    | (s, .error e) => (s, .error e)
    | (s, .ok r) => rest.exec (l.set x r) s
  | .drop c rest, l, s => match c.exec l s with
    | (s, .error e) => (s, .error e)
    | (s, .ok _) => rest.exec l s
  | .guard test rest, l, s => match test (s.env l) with
    | .error e => (s, .error e)
    | .ok _ => rest.exec l s
  | .ite test a b, l, s => if test (s.env l) then a.exec l s else b.exec l s
  | .inplace x unit rest, l, s => match l x with
    | none => (s, .error .attributeError)
    | some r => match convertM stdTables (s.at r) (unit (s.env l)) s.mem with
      | (m, .error e) => (⟨m, s.objs, s.vars⟩, .error e)
      | (m, .ok none) => rest.exec l ⟨m, s.objs, s.vars⟩
      | (m, .ok (some o)) => rest.exec l ⟨m, s.objs.set r o, s.vars⟩
  | .recast x cls, l, s => match l x with
    | none => (s, .error .attributeError)
    | some r => match s.at r with
      | .multi _ v t b => s.alloc (s.mem, .ok (.multi cls v t b))
      | _ => (s, .error .attributeError)
  | .build x f, l, s => match f (s.env l x) with
    | .error e => (s, .error e)
    | .ok (cls, v, unit) => s.alloc (newMulti (.sub cls) v unit s.mem)

/-- A line of a program: a statement, or `x = f(y, z, …)`. -/
inductive Line (K : Type)
  | stmt (c : Cmd K)
  | call (f : Body K) (args : List ℕ)

/-- The objects of the arguments, if all are bound. -/
def argRefs (vars : List ℕ) : List ℕ → Option (List ℕ)
  | [] => some []
  | y :: ys => match vars[y]?, argRefs vars ys with
    | some r, some rs => some (r :: rs)
    | _, _ => none

/-- One line.  When the function returns, its local variables are gone and with them the objects only they refer to. -/
def Machine.line (T : Tables K) (s : Machine K) : Line K → Machine K
  | .stmt c => s.step T c
  | .call f args => match argRefs s.vars args with
    | none => s
    | some rs => match f.exec (fun i => rs[i]?) s with
      | (s', .error _) => ⟨s'.mem, s'.objs.take s.objs.length, s.vars⟩
      | (s', .ok r) =>
        if r < s.objs.length then ⟨s'.mem, s'.objs.take s.objs.length, s.vars ++ [r]⟩
        else ⟨s'.mem, s'.objs.take s.objs.length ++ [s'.at r], s.vars ++ [s.objs.length]⟩

/-- A program. -/
def Machine.lines (T : Tables K) (s : Machine K) (p : List (Line K)) : Machine K := p.foldl (Machine.line T) s

end

end Verif
