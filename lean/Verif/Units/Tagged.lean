import Verif.Units.Ops

/-!
# Exponents with their Python type

The main model has rational exponents.  Python distinguishes the `int` 2 from the `float` 2.0, and `BaseUnit.__hash__`
(units.py:324-325) hashes the printed exponent, so `MultiUnit.__eq__` (units.py:961-967), which compares sets, can tell
them apart.  This file repeats the operators on compound quantities with exponents that know their type; `erase` forgets
the type, and `Verif.Lemmas.Tagged` proves that erasing gives the main model.

Simplification: two different printed texts are taken to have different hashes, and floats are exact.
-/

namespace Verif

/-- A Python number used as an exponent: `int` or `float`. -/
structure PyExp where
  val : ℚ
  float : Bool
  deriving DecidableEq, Repr

namespace PyExp
/-- `a + b`, a float when one of them is. -/
def add (a b : PyExp) : PyExp := ⟨a.val + b.val, a.float || b.float⟩
/-- `a - b`. -/
def sub (a b : PyExp) : PyExp := ⟨a.val - b.val, a.float || b.float⟩
/-- `a * b`. -/
def mul (a b : PyExp) : PyExp := ⟨a.val * b.val, a.float || b.float⟩
/-- `-a`. -/
def neg (a : PyExp) : PyExp := ⟨-a.val, a.float⟩
/-- `a / b`: always a float (only used with `b ≠ 0`). -/
def div (a b : PyExp) : PyExp := ⟨a.val / b.val, true⟩
/-- The literal `0`. -/
def zero : PyExp := ⟨0, false⟩
end PyExp

/-- units.py:303-314 `BaseUnit`. -/
structure TUnit where
  unit : Sym
  exp : PyExp
  deriving DecidableEq, Repr

abbrev TList := List TUnit

/-- Forget the type of the exponent. -/
def TUnit.erase (u : TUnit) : BaseUnit := ⟨u.unit, u.exp.val⟩
def eraseL (l : TList) : UList := l.map TUnit.erase

/-- units.py:516, 538: `float(exponent)` for every parsed factor. -/
def floats (l : UList) : TList := l.map fun u => ⟨u.unit, ⟨u.exp, true⟩⟩

/-- units.py:328-331 `BaseUnit.__pow__`. -/
def TUnit.pow (u : TUnit) (e : PyExp) : TUnit := ⟨u.unit, u.exp.mul e⟩

/-- units.py:486-542 `MultiUnit.parse_units`. -/
def parseUnitsT (s : Sym) : PyM (TList × TList) :=
  match parseUnits s with
  | .error e => .error e
  | .ok (t, b) => .ok (floats t, floats b)

/-- units.py:390-393 for one entry (the prefix is dealt with by the erased lists). -/
def stripUnitT (u : TUnit) : PyM TUnit :=
  match stripUnit u.erase with
  | .error e => .error e
  | .ok (_, w) => .ok ⟨w.unit, u.exp⟩

/-- units.py:376-414 `deconstruct_unit_prefixes`. -/
def deconstructPrefixesT {K : Type} [Zero K] [One K] [Add K] [Sub K] [Mul K] [Div K] [Neg K] [NatCast K] [RatCast K] [PyPow K] (top bot : TList) : PyM (TList × TList × K) :=
  match deconstructPrefixes (K := K) (eraseL top) (eraseL bot) with
  | .error e => .error e
  | .ok (_, _, f) => match mapPy stripUnitT top with
    | .error e => .error e
    | .ok t => match mapPy stripUnitT bot with
      | .error e => .error e
      | .ok b => .ok (t, b, f)

/-- units.py:443-446. -/
def cancelInnerT (u1 : TUnit) : TList → TUnit × TList
  | [] => (u1, [])
  | u2 :: rest =>
    if u1.unit = u2.unit ∧ u1.exp.val ≠ 0 then
      let r := cancelInnerT ⟨u1.unit, u1.exp.sub u2.exp⟩ rest
      (r.1, ⟨u2.unit, .zero⟩ :: r.2)
    else
      let r := cancelInnerT u1 rest
      (r.1, u2 :: r.2)

/-- units.py:442-446. -/
def cancelLoopT : TList → TList → TList × TList
  | [], bot => ([], bot)
  | u1 :: top, bot =>
    let r := cancelInnerT u1 bot
    let s := cancelLoopT top r.2
    (r.1 :: s.1, s.2)

/-- units.py:422-463 `cancel_units`. -/
def cancelUnitsT (top bot : TList) : TList × TList :=
  let r := cancelLoopT top bot
  (r.1.filter (fun u => 0 < u.exp.val),
   ((r.1.filter (fun u => u.exp.val < 0)).map fun u => ⟨u.unit, u.exp.neg⟩) ++ r.2.filter (fun u => u.exp.val ≠ 0))

/-- units.py:480-483. -/
def absorbT (u1 : TUnit) : TList → TUnit × TList
  | [] => (u1, [])
  | u2 :: rest =>
    if u1.unit = u2.unit then
      let r := absorbT ⟨u1.unit, u1.exp.add u2.exp⟩ rest
      (r.1, ⟨u2.unit, .zero⟩ :: r.2)
    else
      let r := absorbT u1 rest
      (r.1, u2 :: r.2)

/-- units.py:479-483 at index `i`. -/
def combineAtT (l : TList) (i : ℕ) : TList :=
  match l.drop i with
  | [] => l
  | u :: post =>
    let r := absorbT u (l.take i)
    let s := absorbT r.1 post
    r.2 ++ s.1 :: s.2

/-- units.py:464-484 `combine_units`. -/
def combineUnitsT (l : TList) : TList := (List.range l.length).foldl combineAtT l

/-- units.py:579-584. -/
def deconDefT (u : TUnit) : Option (PyM (TList × TList)) :=
  match lookupSym u.unit deconTable with
  | none => none
  | some str => some (match parseUnitsT str with
    | .error e => .error e
    | .ok (t, b) => .ok (t.map (·.pow u.exp), b.map (·.pow u.exp)))

/-- units.py:578-591, 593-607. -/
def deconPassT : ℕ → (done rem other : TList) → Bool → PyM (TList × TList × Bool)
  | _, done, [], other, hit => .ok (done, other, hit)
  | 0, _, _ :: _, _, _ => .error .outOfFuel
  | n + 1, done, u :: rem, other, hit =>
    match deconDefT u with
    | none => deconPassT n (done ++ [u]) rem other hit
    | some (.error e) => .error e
    | some (.ok (t, b)) =>
      let rest := rem ++ t
      deconPassT n (done ++ rest.take 1) (rest.drop 1) (other ++ b) true

/-- units.py:578-607. -/
def deconRoundT (top bot : TList) : PyM (TList × TList × Bool) :=
  match deconPassT (passFuel (eraseL top)) [] top bot false with
  | .error e => .error e
  | .ok (top, bot, h1) =>
    match deconPassT (passFuel (eraseL bot)) [] bot top false with
    | .error e => .error e
    | .ok (bot, top, h2) => .ok (top, bot, h1 || h2)

/-- units.py:575-607. -/
def deconLoopT : ℕ → TList → TList → PyM (TList × TList)
  | 0, _, _ => .error .outOfFuel
  | n + 1, top, bot =>
    match deconRoundT top bot with
    | .error e => .error e
    | .ok (top, bot, hit) => if hit then deconLoopT n top bot else .ok (top, bot)

/-- units.py:547-609 `deconstruct_units`. -/
def deconstructUnitsT (top bot : TList) : PyM (TList × TList) :=
  deconLoopT (deconFuel (eraseL top) + deconFuel (eraseL bot) + 1) top bot

/-- units.py:339-347 `do_common_simplifications`: lists are compared with `BaseUnit.__eq__`, which compares numbers. -/
def commonSimplLoopT (top bot : TList) : List (Sym × Sym) → PyM (TList × TList)
  | [] => .ok (top, bot)
  | (s, r) :: rest => match parseUnitsT s with
    | .error e => .error e
    | .ok (ct, cb) =>
      if eraseL ct = eraseL top ∧ eraseL cb = eraseL bot then parseUnitsT r else commonSimplLoopT top bot rest

/-- units.py:696-706: a quotient replaces the count when it is smaller. -/
def lowerInnerT (l : TList) (n : PyExp) (u1 : TUnit) : PyExp :=
  l.foldl (fun n u2 =>
    if u1.unit = u2.unit then (if (u2.exp.div u1.exp).val < n.val then u2.exp.div u1.exp else n) else n) n

def lowerMatchesT (base l : TList) (n : PyExp) : PyExp := base.foldl (lowerInnerT l) n

/-- units.py:642-706; the count starts at the int 100. -/
def countMatchesT (top bot : TList) (d : Sym) : PyM (Option PyExp) :=
  match parseUnitsT d with
  | .error e => .error e
  | .ok (bt, bb) =>
    if !symbolsIn (eraseL bt) (eraseL top) || !symbolsIn (eraseL bb) (eraseL bot) then .ok none
    else if !expsMatch (eraseL bt) (eraseL top) then .ok none
    else if !expsMatch (eraseL bb) (eraseL bot) then .ok none
    else .ok (some (lowerMatchesT bb bot (lowerMatchesT bt top ⟨100, false⟩)))

/-- units.py:640-710. -/
def matchLoopT (top bot : TList) : List (Sym × Sym) → PyM (List (Sym × PyExp))
  | [] => .ok []
  | (k, d) :: rest => match countMatchesT top bot d with
    | .error e => .error e
    | .ok r => match matchLoopT top bot rest with
      | .error e => .error e
      | .ok ms => match r with
        | none => .ok ms
        | some n => .ok ((k, n) :: ms)

/-- units.py:720. -/
def bestMatchT (m : Sym × PyExp) : List (Sym × PyExp) → Sym × PyExp
  | [] => m
  | x :: xs => if m.2.val < x.2.val then bestMatchT x xs else bestMatchT m xs

/-- units.py:725-742. -/
def applyMatchT (top bot : TList) (k : Sym) (n : PyExp) : PyM (TList × TList) :=
  match lookupSym k deconTable with
  | none => .error .keyError
  | some d => match parseUnitsT d with
    | .error e => .error e
    | .ok (bt, bb) =>
      let r := cancelUnitsT (top ++ bb.map (·.pow n)) (bot ++ bt.map (·.pow n))
      .ok (r.1 ++ [⟨k, n⟩], r.2)

/-- units.py:638-745. -/
def simplLoopT : ℕ → TList → TList → PyM (TList × TList)
  | 0, _, _ => .error .outOfFuel
  | n + 1, top, bot =>
    match matchLoopT top bot deconTable with
    | .error e => .error e
    | .ok [] => .ok (top, bot)
    | .ok (m :: ms) =>
      if ((m :: ms).map (·.2.val)).sum = 0 then .ok (top, bot)
      else
        let b := bestMatchT m ms
        match applyMatchT top bot b.1 b.2 with
        | .error e => .error e
        | .ok (top', bot') => simplLoopT n top' bot'

/-- units.py:611-750 `simplify_units`. -/
def simplifyUnitsT (top bot : TList) : PyM (TList × TList) :=
  match simplLoopT ((simplPotential (eraseL top) (eraseL bot)).num.toNat + 1) top bot with
  | .error e => .error e
  | .ok (top, bot) => commonSimplLoopT top bot simplTable

section
variable {K : Type} [Zero K] [One K] [Add K] [Sub K] [Mul K] [Div K] [Neg K] [NatCast K] [RatCast K] [LinearOrder K] [PyPow K]

/-- The pipeline of the operators (see `reduceUnits`). -/
def reduceUnitsT (combTop combBot : Bool) (top bot : TList) : PyM (TList × TList × K) :=
  match deconstructPrefixesT (K := K) top bot with
  | .error e => .error e
  | .ok (t, b, f) => match deconstructUnitsT t b with
    | .error e => .error e
    | .ok (t, b) =>
      let t := if combTop then combineUnitsT t else t
      let b := if combBot then combineUnitsT b else b
      let r := cancelUnitsT t b
      match simplifyUnitsT r.1 r.2 with
      | .error e => .error e
      | .ok (t, b) => .ok (t, b, f)

/-- units.py:1178-1182. -/
def reducePowT (top bot : TList) : PyM (TList × TList) :=
  match deconstructUnitsT top bot with
  | .error e => .error e
  | .ok (t, b) =>
    let r := cancelUnitsT (combineUnitsT t) (combineUnitsT b)
    simplifyUnitsT r.1 r.2

/-- units.py:366-373: a `MultiUnit`. -/
structure TMulti (K : Type) where
  cls : MCls
  value : K
  top : TList
  bot : TList
  deriving DecidableEq, Repr

/-- A `Unit`. -/
structure TSimple (K : Type) where
  cls : UCls
  value : K
  unit : Sym
  exp : PyExp
  deriving DecidableEq, Repr

/-- Results of the operators below. -/
inductive TVal (K : Type)
  | num (x : K)
  | unit (u : TSimple K)
  | multi (m : TMulti K)
  deriving DecidableEq, Repr

def TMulti.erase (m : TMulti K) : MultiV K := ⟨m.cls, m.value, eraseL m.top, eraseL m.bot⟩
def TSimple.erase (u : TSimple K) : UnitV K := ⟨u.cls, u.value, u.unit, u.exp.val⟩
def TVal.erase : TVal K → Val K
  | .num x => .num x
  | .unit u => .unit u.erase
  | .multi m => .multi m.erase

/-- units.py:366-373 with a unit string. -/
def mkMultiT (cls : MCls) (value : K) (unit : Sym) : PyM (TMulti K) :=
  if unit = [] then .ok ⟨cls, value, [], []⟩
  else match parseUnitsT unit with
    | .error e => .error e
    | .ok (t, b) => .ok ⟨cls, value, t, b⟩

/-- units.py:1006-1018. -/
def packDivT (v : K) (t b : TList) : TVal K :=
  match t, b with
  | [], [] => .num v
  | [u], [] => .unit ⟨.unit, v, u.unit, u.exp⟩
  | [], [u] => .unit ⟨.unit, v, u.unit, u.exp.neg⟩
  | t, b => .multi ⟨.multi, v, t, b⟩

/-- units.py:1087-1095. -/
def packMulT (v : K) (t b : TList) : TVal K :=
  match t, b with
  | [], [] => .num v
  | [u], [] => .unit ⟨.unit, v, u.unit, u.exp⟩
  | t, b => .multi ⟨.multi, v, t, b⟩

/-- units.py:1052-1072 `MultiUnit.__mul__` with a MultiUnit. -/
def multiMulMultiT (m o : TMulti K) : PyM (TVal K) :=
  match reduceUnitsT (K := K) true true (m.top ++ o.top) (m.bot ++ o.bot) with
  | .error e => .error e
  | .ok (t, b, f) => .ok (.multi ⟨.multi, m.value * o.value * f, t, b⟩)

/-- units.py:1073-1095 `MultiUnit.__mul__` with a Unit. -/
def multiMulUnitT (m : TMulti K) (u : TSimple K) : PyM (TVal K) :=
  match reduceUnitsT (K := K) true true (m.top ++ [⟨u.unit, u.exp⟩]) m.bot with
  | .error e => .error e
  | .ok (t, b, _) => .ok (packMulT (u.value * m.value) t b)

/-- units.py:984-1018 `MultiUnit.__truediv__` by a MultiUnit (the lists are compared with `BaseUnit.__eq__`). -/
def multiDivMultiT (m o : TMulti K) : PyM (TVal K) :=
  if eraseL m.top = eraseL o.top ∧ eraseL m.bot = eraseL o.bot then
    match pyDiv m.value o.value with
    | .error e => .error e
    | .ok v => .ok (.num v)
  else match reduceUnitsT (K := K) true true (m.top ++ o.bot) (m.bot ++ o.top) with
    | .error e => .error e
    | .ok (t, b, f) => match pyDiv m.value o.value with
      | .error e => .error e
      | .ok v => .ok (packDivT (v * f) t b)

/-- units.py:1019-1045 `MultiUnit.__truediv__` by a Unit. -/
def multiDivUnitT (m : TMulti K) (u : TSimple K) : PyM (TVal K) :=
  match reduceUnitsT (K := K) false true m.top (m.bot ++ [⟨u.unit, u.exp⟩]) with
  | .error e => .error e
  | .ok (t, b, f) => match pyDiv m.value u.value with
    | .error e => .error e
    | .ok v => .ok (packDivT (v * f) t b)

/-- units.py:1104-1136 `MultiUnit.__rtruediv__` with a Unit numerator. -/
def unitDivMultiT (u : TSimple K) (m : TMulti K) : PyM (TVal K) :=
  match reduceUnitsT (K := K) true false (m.bot ++ [⟨u.unit, u.exp⟩]) m.top with
  | .error e => .error e
  | .ok (t, b, _) => match pyDiv u.value m.value with
    | .error e => .error e
    | .ok v => .ok (packDivT v t b)

/-- units.py:207-216 `Unit.__truediv__` by a Unit with another symbol. -/
def unitDivUnitT (u o : TSimple K) : PyM (TVal K) :=
  match pyDiv u.value o.value with
  | .error e => .error e
  | .ok v => .ok (.multi ⟨.multi, v, [⟨u.unit, u.exp⟩], [⟨o.unit, o.exp⟩]⟩)

/-- units.py:231 `Unit.__mul__` of different units: both exponents are the default, the int 1. -/
def unitMulUnitT (u o : TSimple K) : TVal K :=
  .multi ⟨.multi, u.value * o.value, [⟨u.unit, ⟨1, false⟩⟩, ⟨o.unit, ⟨1, false⟩⟩], []⟩

/-- units.py:968-975 `MultiUnit.__add__`; the result has the lists of the left operand. -/
def multiAddT (m o : TMulti K) : PyM (TVal K) :=
  if m.cls = o.cls then
    if eraseL m.top = eraseL o.top ∧ eraseL m.bot = eraseL o.bot then
      .ok (.multi ⟨.multi, m.value + o.value, m.top, m.bot⟩)
    else .error .typeError
  else .error .typeError

/-- units.py:976-983 `MultiUnit.__sub__`. -/
def multiSubT (m o : TMulti K) : PyM (TVal K) :=
  if eraseL m.top = eraseL o.top ∧ eraseL m.bot = eraseL o.bot then
    .ok (.multi ⟨.multi, m.value - o.value, m.top, m.bot⟩)
  else .error .typeError

/-- units.py:1169-1186 `MultiUnit.__pow__`. -/
def multiPowT (m : TMulti K) (e : PyExp) : PyM (TVal K) :=
  match reducePowT (m.top.map (·.pow e)) (m.bot.map (·.pow e)) with
  | .error err => .error err
  | .ok (t, b) => match PyPow.pow m.value e.val with
    | .error err => .error err
    | .ok v => .ok (.multi ⟨.multi, v, t, b⟩)

/-- units.py:315-325: two entries are the same element of a Python set: equal numbers and equal hashes, i.e. equal printed
text.  An exponent equal to 1 is not printed. -/
def TUnit.sameElem (x y : TUnit) : Bool :=
  decide (x.unit = y.unit) && decide (x.exp.val = y.exp.val) && (decide (x.exp.val = 1) || decide (x.exp.float = y.exp.float))

/-- `set(xs) == set(ys)`. -/
def setEqT (xs ys : TList) : Bool :=
  xs.all (fun x => ys.any (x.sameElem ·)) && ys.all (fun y => xs.any (y.sameElem ·))

/-- units.py:961-967 `MultiUnit.__eq__`. -/
def multiEqT (m o : TMulti K) : Bool :=
  decide (m.cls = o.cls) && decide (m.value = o.value) && setEqT m.top o.top && setEqT m.bot o.bot

end

end Verif
