import Verif.Units.Programs

/-!
# Programs over values

What a user expects of a program: operators give new values computed from the operands as they are, and nothing but an
in-place conversion changes an object.  There are no lists and no sharing here.
-/

namespace Verif

section
variable {K : Type} [Zero K] [One K] [Add K] [Sub K] [Mul K] [Div K] [Neg K] [NatCast K] [RatCast K] [LinearOrder K] [PyPow K]

/-- Objects are values; variables refer to objects. -/
structure Values (K : Type) where
  objs : List (Val K)
  vars : List ℕ

def Values.get (s : Values K) (x : ℕ) : Option (Val K) :=
  match s.vars[x]? with
  | none => none
  | some r => s.objs[r]?

def Values.bind (s : Values K) : PyM (Val K) → Values K
  | .error _ => s
  | .ok v => ⟨s.objs ++ [v], s.vars ++ [s.objs.length]⟩

def BinOp.val : BinOp → Val K → Val K → PyM (Val K)
  | .add => Val.add
  | .sub => Val.sub
  | .mul => Val.mul
  | .div => Val.div

/-- One statement. -/
def Values.step (T : Tables K) (s : Values K) : Cmd K → Values K
  | .num v => s.bind (.ok (.num v))
  | .unit cls v unit e => s.bind (wrapUnit (mkUnit cls v unit e))
  | .multi cls v unit => s.bind (match mkMulti cls v unit with
    | .error e => .error e
    | .ok q => .ok (.multi q))
  | .alias y => match s.vars[y]? with
    | none => s
    | some r => ⟨s.objs, s.vars ++ [r]⟩
  | .bin op y z => match s.get y, s.get z with
    | some a, some b => s.bind (op.val a b)
    | _, _ => s
  | .pow y e => match s.get y with
    | some a => s.bind (a.pow e)
    | none => s
  | .neg y => match s.get y with
    | some a => s.bind a.neg
    | none => s
  | .convert y unit => match s.vars[y]?, s.get y with
    | some r, some a => match convertOpt T a unit with
      | .error _ => s
      | .ok none => ⟨s.objs, s.vars ++ [r]⟩
      | .ok (some v) => s.bind (.ok v)
    | _, _ => s
  | .inplace y unit => match s.vars[y]?, s.get y with
    | some r, some a => match convertOpt T a unit with
      | .error _ => s
      | .ok none => s
      | .ok (some v) => ⟨s.objs.set r v, s.vars⟩
    | _, _ => s

def Values.run (T : Tables K) (s : Values K) (p : List (Cmd K)) : Values K := p.foldl (Values.step T) s

def Values.start : Values K := ⟨[], []⟩

end

end Verif
