import Verif.HeatTransfer.Conduction
import Verif.Units.MathFun

/-!
# cheme_calculations/reactions/reaction_parameters.py and reactor_design.py
-/

namespace Verif

section
variable {K : Type} [Zero K] [One K] [Add K] [Sub K] [Mul K] [Div K] [Neg K] [NatCast K] [RatCast K] [LinearOrder K] [PyPow K]

/-- `sep.join(parts)`. -/
def joinWith (sep : Sym) : List Sym → Sym
  | [] => []
  | [x] => x
  | x :: xs => x ++ sep ++ joinWith sep xs

/-- units.py:933-952, the loop over the bottom half: the growing top string and the bottom strings.  `fmt e` is
`to_sup(str(remove_zero(e)))`. -/
def bottomStrings (fmt : ℚ → Sym) : UList → Sym → Sym × List Sym
  | [], top => (top, [])
  | a :: as, top =>
    if a.exp = 1 then
      let (t, b) := bottomStrings fmt as top
      (t, a.unit :: b)
    else if a.exp < 0 then
      bottomStrings fmt as (if top = [] then top ++ (a.unit ++ fmt (-a.exp)) else top ++ (c!" * " ++ a.unit ++ fmt (-a.exp)))
    else
      let (t, b) := bottomStrings fmt as top
      (t, (a.unit ++ fmt a.exp) :: b)

/-- units.py:924-954 `MultiUnit.get_unit_string` (`to_sup` never raises KeyError, so the `except` branches are dead). -/
def getUnitString (fmt : ℚ → Sym) (m : MultiV K) : Sym :=
  let top := joinWith c!" * " (m.top.map fun a => if a.exp ≠ 1 then a.unit ++ fmt a.exp else a.unit)
  if m.bot = [] then top
  else
    let (t, b) := bottomStrings fmt m.bot top
    t ++ c!" / " ++ joinWith c!" * " b

/-- reaction_parameters.py:66-75 `_get_arrhenius_units`. -/
def arrheniusUnits (K : Type) [Zero K] [One K] [Add K] [Sub K] [Mul K] [Div K] [Neg K] [NatCast K] [RatCast K] [LinearOrder K] [PyPow K] (fmt : ℚ → Sym) (order : ℚ) : PyM Sym :=
  if order = 0 then .ok c!"mol/L*s"
  else if order = 1 then .ok c!"s^-1"
  else match (ppow (qM c!"Concentration" 1 c!"mol/L") (1 - order) / qU .time 1 c!"s" : PyM (Val K)) with
    | .error e => .error e
    | .ok (.multi m) => .ok (getUnitString fmt m)
    | .ok _ => .error .attributeError

end

/-- reaction_parameters.py:115: `A = MultiUnit(A, _get_arrhenius_units(order))`; `MultiUnit(None, …)` is accepted, its
value is never read in the only branch reached when `A` is missing, so it is represented by None. -/
noncomputable def arrheniusA (fmt : ℚ → Sym) (order : ℚ) (A : PyM (Val ℝ)) : PyM (Val ℝ) :=
  match A with
  | .error e => .error e
  | .ok a => match arrheniusUnits ℝ fmt order with
    | .error e => .error e
    | .ok u => match a with
      | .num x => qMulti x u
      | .none => match (qMulti 0 u : PyM (Val ℝ)) with
        | .error e => .error e
        | .ok _ => .ok .none
      | _ => .error .notRepresentable

/-- reaction_parameters.py:112-128, the body of `arrhenius`. -/
noncomputable def arrheniusBody (fmt : ℚ → Sym) (order : ℚ) (env : List (Sym × Val ℝ)) (s : Solving) : PyM (Val ℝ) :=
  let Ea := arg env c!"Ea"
  let R := arg env c!"R"
  let T := arg env c!"T"
  let k := arg env c!"k"
  match arrheniusA fmt order (arg env c!"A") with
  | .error e => .error e
  | .ok a =>
    let A : PyM (Val ℝ) := .ok a
    if s = .one c!"k" then A * pyExp ((-Ea) / (R * T))
    else if s = .one c!"Ea" then (-(pyLog (k / A))) * R * T
    else if s = .one c!"T" then pnum 1 / ((pyLog (k / A) * R) / (-Ea))
    else if s = .one c!"A" then k / pyExp ((-Ea) / R * T)
    else .ok .none

/-- reaction_parameters.py:79. -/
def arrheniusSig : Sig (Val ℝ) where
  names := [c!"order", c!"A", c!"Ea", c!"R", c!"T", c!"k"]
  defaults := some [.none]

/-- reaction_parameters.py:78-128 `arrhenius`; the order is a rational number given as the first positional argument. -/
noncomputable def arrhenius (fmt : ℚ → Sym) (order : ℚ) (args : List (Val ℝ)) (kw : List (Sym × Val ℝ)) : PyM (Val ℝ) :=
  solvableFor Val.isNone arrheniusSig [c!"A", c!"Ea", c!"T", c!"k"] 1 (arrheniusBody fmt order)
    (.num (order : ℝ) :: args) kw

/-- reactor_design.py:6-25 `cstr_volume`. -/
noncomputable def cstrVolume (Fa0 Fa ra : PyM (Val ℝ)) : PyM (Val ℝ) := (Fa0 - Fa) / (-ra)

end Verif
