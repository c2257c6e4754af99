import Verif.Py

/-!
# The decorator `solvable_for`

Model of `cheme_calculations/utility/equation_solving.py` lines 16-69 together with the part of Python's calling
convention it relies on.  `V` is the type of argument values, `isNone v` says `v == None`.
-/

namespace Verif

/-- What the decorated function is told to solve for (keyword `solving_for`): a name when `unknowns == 1`, else a list. -/
inductive Solving
  | one (name : Sym)
  | many (names : List Sym)
  deriving DecidableEq, Repr

/-- Python signature of the decorated function: parameter names, and the default values of the last ones (`none` when
there are no defaults, where `getfullargspec(func).defaults` is `None`). All decorated functions take `**kwargs`. -/
structure Sig (V : Type) where
  names : List Sym
  defaults : Option (List V)

/-- Keyword lookup. -/
def kwGet {V : Type} (k : Sym) : List (Sym × V) → Option V
  | [] => none
  | (k', v) :: r => if k = k' then some v else kwGet k r

/-- Python's call rule for the parameters not given positionally: keyword, else default, else TypeError. `defs` is the list
of (name, default). -/
def bindRest {V : Type} (kw defs : List (Sym × V)) : List Sym → PyM (List (Sym × V))
  | [] => .ok []
  | n :: ns => match (kwGet n kw).or (kwGet n defs) with
    | none => .error .typeError
    | some v => match bindRest kw defs ns with
      | .error e => .error e
      | .ok r => .ok ((n, v) :: r)

/-- The parameters that have a default, paired with it. -/
def defaultPairs {V : Type} (s : Sig V) : List (Sym × V) :=
  match s.defaults with
  | none => []
  | some ds => (s.names.drop (s.names.length - ds.length)).zip ds

/-- Python's binding of a call `func(*args, **kw)` for a signature with `**kwargs` (surplus keywords are accepted). -/
def bindCall {V : Type} (s : Sig V) (args : List V) (kw : List (Sym × V)) : PyM (List (Sym × V)) :=
  if s.names.length < args.length then .error .typeError
  else if (s.names.take args.length).any (fun n => (kwGet n kw).isSome) then .error .typeError
  else match bindRest kw (defaultPairs s) (s.names.drop args.length) with
    | .error e => .error e
    | .ok r => .ok ((s.names.zip args) ++ r)

section
variable {V R : Type} (isNone : V → Bool)

/-- Names with value None, in dictionary order. -/
def noneNames (d : List (Sym × V)) : List Sym := (d.filter fun p => isNone p.2).map (·.1)

/-- equation_solving.py:50-54: `solving_for = arg_names[-1]`, then overwritten by each parameter that is None. -/
def lastNone (dflt : Sym) (l : List Sym) : Sym := l.foldl (fun _ k => k) dflt

/-- equation_solving.py:25-65 `wrapper`.  The call on line 64 fails with TypeError when the caller passes a keyword
`solving_for`. -/
def solvableFor (s : Sig V) (solvable : List Sym) (unknowns : ℕ)
    (body : List (Sym × V) → Solving → PyM R) (args : List V) (kw : List (Sym × V)) : PyM R :=
  match s.defaults with
  | none => .error .typeError
  | some ds =>
    let full := args ++ kw.map (·.2) ++ ds
    let d := s.names.zip full
    let nn := noneNames isNone d
    if nn.any (fun k => decide (k ∉ solvable)) then .error .solutionNotSupported
    else if unknowns < nn.length then .error .unsolvable
    else if nn.length < unknowns then .error .overSpecified
    else
      let call := fun sf => 
        if (kwGet c!"solving_for" kw).isSome then .error .typeError
        else match bindCall s args kw with
          | .error e => .error e
          | .ok env => body env sf
      if unknowns = 1 then
        match s.names.getLast? with
        | none => .error .indexError
        | some z => call (.one (lastNone z nn))
      else call (.many nn)

end

end Verif
