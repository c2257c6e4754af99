import Verif.Units.Calls
import Verif.Spec.Programs

/-!
# Function calls over values

What a user expects of a call: the result is a new object whose value the body computes from the values of the arguments,
and nothing else happens.
-/

namespace Verif

section
variable {K : Type} [Zero K] [One K] [Add K] [Sub K] [Mul K] [Div K] [Neg K] [NatCast K] [RatCast K] [LinearOrder K]
  [PyPow K] [PyMath K]

/-- The value a body computes. -/
def Body.run : Body K → (ℕ → Val K) → PyM (Val K)
  | .ret c, env => c.run env
  | .assign x c rest, env => match c.run env with
    | .error e => .error e
    | .ok v => rest.run fun i => if i = x then v else env i
  | .drop c rest, env => match c.run env with
    | .error e => .error e
    | .ok _ => rest.run env
  | .guard test rest, env => match test env with
    | .error e => .error e
    | .ok _ => rest.run env
  | .ite test a b, env => if test env then a.run env else b.run env
  | .inplace x unit rest, env => match callConvert (env x) (unit env) with
    | .error e => .error e
    | .ok v => rest.run fun i => if i = x then v else env i
  | .recast x cls, env => match env x with
    | .multi m => .ok (.multi ⟨cls, m.value, m.top, m.bot⟩)
    | _ => .error .attributeError
  | .build x f, env => match f (env x) with
    | .error e => .error e
    | .ok (cls, v, unit) => match mkMulti (.sub cls) v unit with
      | .error e => .error e
      | .ok m => .ok (.multi m)

/-- The values of arguments. -/
def Values.env (s : Values K) (rs : List ℕ) : ℕ → Val K := fun i => match rs[i]? with
  | some r => s.objs.getD r .none
  | none => .none

/-- One line. -/
def Values.line (T : Tables K) (s : Values K) : Line K → Values K
  | .stmt c => s.step T c
  | .call f args => match argRefs s.vars args with
    | none => s
    | some rs => s.bind (f.run (s.env rs))

def Values.lines (T : Tables K) (s : Values K) (p : List (Line K)) : Values K := p.foldl (Values.line T) s

/-- The expression gives an object that did not exist before: it ends with an operator, a function or a constant. -/
def Code.isNew : Code → Bool
  | .var _ => false
  | .conv a _ => a.isNew
  | _ => true

/-- The body converts in place, and returns, only objects that it made itself; `own` says of which local variables this is
known, and that no other local variable refers to the same object. -/
def Body.proper : Body K → (own : ℕ → Bool) → Bool
  | .ret c, own => c.isNew || (match c with
    | .var i => own i
    | _ => false)
  | .assign x c rest, own => if c.isNew then rest.proper (fun i => i = x || own i) else rest.proper fun _ => false
  | .drop _ rest, own => rest.proper own
  | .guard _ rest, own => rest.proper own
  | .ite _ a b, own => a.proper own && b.proper own
  | .inplace x _ rest, own => own x && rest.proper own
  | .recast _ _, _ => true
  | .build _ _, _ => true

end

end Verif
