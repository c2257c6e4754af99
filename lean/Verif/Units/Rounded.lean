import Verif.Units.Ops

/-!
# Exponents in floating point

The main model computes exponents exactly.  Python computes them with floats.  This file repeats the reduction and the
operators on compound quantities with the result of every arithmetic operation on exponents passed through `r`
(`toDouble` of Spec/Rounding for Python; ints are exact, and `r` leaves them alone as long as they have at most 53 bits).

Simplification: the sum of the counts on units.py:717 is taken to be exact; it is only compared with zero, and all
counts are at least 1.  With a rounding that changes something the bounds on the number of rounds may be too small;
`outOfFuel` is then an error of the model only.
-/

namespace Verif

section
variable (r : ℚ → ℚ)

/-- units.py:328-331 `BaseUnit.__pow__`. -/
def powR (u : BaseUnit) (e : ℚ) : BaseUnit := ⟨u.unit, r (u.exp * e)⟩

/-- units.py:443-446. -/
def cancelInnerR (u1 : BaseUnit) : UList → BaseUnit × UList
  | [] => (u1, [])
  | u2 :: rest =>
    if u1.unit = u2.unit ∧ u1.exp ≠ 0 then
      let s := cancelInnerR ⟨u1.unit, r (u1.exp - u2.exp)⟩ rest
      (s.1, ⟨u2.unit, 0⟩ :: s.2)
    else
      let s := cancelInnerR u1 rest
      (s.1, u2 :: s.2)

/-- units.py:442-446. -/
def cancelLoopR : UList → UList → UList × UList
  | [], bot => ([], bot)
  | u1 :: top, bot =>
    let x := cancelInnerR r u1 bot
    let s := cancelLoopR top x.2
    (x.1 :: s.1, s.2)

/-- units.py:422-463 `cancel_units` (changing the sign is exact). -/
def cancelUnitsR (top bot : UList) : UList × UList :=
  let x := cancelLoopR r top bot
  (x.1.filter (fun u => 0 < u.exp),
   ((x.1.filter (fun u => u.exp < 0)).map fun u => ⟨u.unit, -u.exp⟩) ++ x.2.filter (fun u => u.exp ≠ 0))

/-- units.py:480-483. -/
def absorbR (u1 : BaseUnit) : UList → BaseUnit × UList
  | [] => (u1, [])
  | u2 :: rest =>
    if u1.unit = u2.unit then
      let s := absorbR ⟨u1.unit, r (u1.exp + u2.exp)⟩ rest
      (s.1, ⟨u2.unit, 0⟩ :: s.2)
    else
      let s := absorbR u1 rest
      (s.1, u2 :: s.2)

/-- units.py:479-483 at index `i`. -/
def combineAtR (l : UList) (i : ℕ) : UList :=
  match l.drop i with
  | [] => l
  | u :: post =>
    let x := absorbR r u (l.take i)
    let s := absorbR r x.1 post
    x.2 ++ s.1 :: s.2

/-- units.py:464-484 `combine_units`. -/
def combineUnitsR (l : UList) : UList := (List.range l.length).foldl (combineAtR r) l

/-- units.py:579-584. -/
def deconDefR (u : BaseUnit) : Option (PyM (UList × UList)) :=
  match lookupSym u.unit deconTable with
  | none => none
  | some str => some (match parseUnits str with
    | .error e => .error e
    | .ok (t, b) => .ok (t.map (powR r · u.exp), b.map (powR r · u.exp)))

/-- units.py:578-591, 593-607. -/
def deconPassR : ℕ → (done rem other : UList) → Bool → PyM (UList × UList × Bool)
  | _, done, [], other, hit => .ok (done, other, hit)
  | 0, _, _ :: _, _, _ => .error .outOfFuel
  | n + 1, done, u :: rem, other, hit =>
    match deconDefR r u with
    | none => deconPassR n (done ++ [u]) rem other hit
    | some (.error e) => .error e
    | some (.ok (t, b)) =>
      let rest := rem ++ t
      deconPassR n (done ++ rest.take 1) (rest.drop 1) (other ++ b) true

/-- units.py:578-607. -/
def deconRoundR (top bot : UList) : PyM (UList × UList × Bool) :=
  match deconPassR r (passFuel top) [] top bot false with
  | .error e => .error e
  | .ok (top, bot, h1) =>
    match deconPassR r (passFuel bot) [] bot top false with
    | .error e => .error e
    | .ok (bot, top, h2) => .ok (top, bot, h1 || h2)

/-- units.py:575-607. -/
def deconLoopR : ℕ → UList → UList → PyM (UList × UList)
  | 0, _, _ => .error .outOfFuel
  | n + 1, top, bot =>
    match deconRoundR r top bot with
    | .error e => .error e
    | .ok (top, bot, hit) => if hit then deconLoopR n top bot else .ok (top, bot)

/-- units.py:547-609 `deconstruct_units`. -/
def deconstructUnitsR (top bot : UList) : PyM (UList × UList) :=
  deconLoopR r (deconFuel top + deconFuel bot + 1) top bot

/-- units.py:696-706. -/
def lowerInnerR (l : UList) (n : ℚ) (u1 : BaseUnit) : ℚ :=
  l.foldl (fun n u2 =>
    if u1.unit = u2.unit then (if r (u2.exp / u1.exp) < n then r (u2.exp / u1.exp) else n) else n) n

def lowerMatchesR (base l : UList) (n : ℚ) : ℚ := base.foldl (lowerInnerR r l) n

/-- units.py:642-706. -/
def countMatchesR (top bot : UList) (d : Sym) : PyM (Option ℚ) :=
  match parseUnits d with
  | .error e => .error e
  | .ok (bt, bb) =>
    if !symbolsIn bt top || !symbolsIn bb bot then .ok none
    else if !expsMatch bt top then .ok none
    else if !expsMatch bb bot then .ok none
    else .ok (some (lowerMatchesR r bb bot (lowerMatchesR r bt top 100)))

/-- units.py:640-710. -/
def matchLoopR (top bot : UList) : List (Sym × Sym) → PyM (List (Sym × ℚ))
  | [] => .ok []
  | (k, d) :: rest => match countMatchesR r top bot d with
    | .error e => .error e
    | .ok x => match matchLoopR top bot rest with
      | .error e => .error e
      | .ok ms => match x with
        | none => .ok ms
        | some n => .ok ((k, n) :: ms)

/-- units.py:725-742. -/
def applyMatchR (top bot : UList) (k : Sym) (n : ℚ) : PyM (UList × UList) :=
  match lookupSym k deconTable with
  | none => .error .keyError
  | some d => match parseUnits d with
    | .error e => .error e
    | .ok (bt, bb) =>
      let x := cancelUnitsR r (top ++ bb.map (powR r · n)) (bot ++ bt.map (powR r · n))
      .ok (x.1 ++ [⟨k, n⟩], x.2)

/-- units.py:638-745. -/
def simplLoopR : ℕ → UList → UList → PyM (UList × UList)
  | 0, _, _ => .error .outOfFuel
  | n + 1, top, bot =>
    match matchLoopR r top bot deconTable with
    | .error e => .error e
    | .ok [] => .ok (top, bot)
    | .ok (m :: ms) =>
      if ((m :: ms).map (·.2)).sum = 0 then .ok (top, bot)
      else
        let b := bestMatch m ms
        match applyMatchR r top bot b.1 b.2 with
        | .error e => .error e
        | .ok (top', bot') => simplLoopR n top' bot'

/-- units.py:611-750 `simplify_units`. -/
def simplifyUnitsR (top bot : UList) : PyM (UList × UList) :=
  match simplLoopR r ((simplPotential top bot).num.toNat + 1) top bot with
  | .error e => .error e
  | .ok (top, bot) => commonSimplifications top bot

end

section
variable {K : Type} [Zero K] [One K] [Add K] [Sub K] [Mul K] [Div K] [Neg K] [NatCast K] [RatCast K] [LinearOrder K] [PyPow K]
variable (r : ℚ → ℚ)

/-- The pipeline of the operators (see `reduceUnits`). -/
def reduceUnitsR (combTop combBot : Bool) (top bot : UList) : PyM (UList × UList × K) :=
  match deconstructPrefixes (K := K) top bot with
  | .error e => .error e
  | .ok (t, b, f) => match deconstructUnitsR r t b with
    | .error e => .error e
    | .ok (t, b) =>
      let t := if combTop then combineUnitsR r t else t
      let b := if combBot then combineUnitsR r b else b
      let x := cancelUnitsR r t b
      match simplifyUnitsR r x.1 x.2 with
      | .error e => .error e
      | .ok (t, b) => .ok (t, b, f)

/-- units.py:1178-1182. -/
def reducePowR (top bot : UList) : PyM (UList × UList) :=
  match deconstructUnitsR r top bot with
  | .error e => .error e
  | .ok (t, b) =>
    let x := cancelUnitsR r (combineUnitsR r t) (combineUnitsR r b)
    simplifyUnitsR r x.1 x.2

/-- units.py:1052-1072 `MultiUnit.__mul__` with a MultiUnit. -/
def multiMulMultiR (m o : MultiV K) : PyM (Val K) :=
  match reduceUnitsR (K := K) r true true (m.top ++ o.top) (m.bot ++ o.bot) with
  | .error e => .error e
  | .ok (t, b, f) => .ok (.multi ⟨.multi, m.value * o.value * f, t, b⟩)

/-- units.py:1073-1095 `MultiUnit.__mul__` with a Unit. -/
def multiMulUnitR (m : MultiV K) (u : UnitV K) : PyM (Val K) :=
  match reduceUnitsR (K := K) r true true (m.top ++ [⟨u.unit, u.exp⟩]) m.bot with
  | .error e => .error e
  | .ok (t, b, _) => .ok (packMul (u.value * m.value) t b)

/-- units.py:984-1018 `MultiUnit.__truediv__` by a MultiUnit. -/
def multiDivMultiR (m o : MultiV K) : PyM (Val K) :=
  if m.top = o.top ∧ m.bot = o.bot then
    match pyDiv m.value o.value with
    | .error e => .error e
    | .ok v => .ok (.num v)
  else match reduceUnitsR (K := K) r true true (m.top ++ o.bot) (m.bot ++ o.top) with
    | .error e => .error e
    | .ok (t, b, f) => match pyDiv m.value o.value with
      | .error e => .error e
      | .ok v => .ok (packDiv (v * f) t b)

/-- units.py:1019-1045 `MultiUnit.__truediv__` by a Unit. -/
def multiDivUnitR (m : MultiV K) (u : UnitV K) : PyM (Val K) :=
  match reduceUnitsR (K := K) r false true m.top (m.bot ++ [⟨u.unit, u.exp⟩]) with
  | .error e => .error e
  | .ok (t, b, f) => match pyDiv m.value u.value with
    | .error e => .error e
    | .ok v => .ok (packDiv (v * f) t b)

/-- units.py:1104-1136 `MultiUnit.__rtruediv__` with a Unit numerator. -/
def unitDivMultiR (u : UnitV K) (m : MultiV K) : PyM (Val K) :=
  match reduceUnitsR (K := K) r true false (m.bot ++ [⟨u.unit, u.exp⟩]) m.top with
  | .error e => .error e
  | .ok (t, b, _) => match pyDiv u.value m.value with
    | .error e => .error e
    | .ok v => .ok (packDiv v t b)

/-- units.py:1169-1186 `MultiUnit.__pow__`. -/
def multiPowR (m : MultiV K) (e : ℚ) : PyM (Val K) :=
  match reducePowR r (m.top.map (powR r · e)) (m.bot.map (powR r · e)) with
  | .error err => .error err
  | .ok (t, b) => match PyPow.pow m.value e with
    | .error err => .error err
    | .ok v => .ok (.multi ⟨.multi, v, t, b⟩)

/-- units.py:1052-1099 `MultiUnit.__mul__`. -/
def multiMulR (m : MultiV K) : Val K → PyM (Val K)
  | .multi o => multiMulMultiR r m o
  | .unit u => multiMulUnitR r m u
  | b => multiMul m b

/-- units.py:984-1050 `MultiUnit.__truediv__`. -/
def multiDivR (m : MultiV K) : Val K → PyM (Val K)
  | .multi o => multiDivMultiR r m o
  | .unit u => multiDivUnitR r m u
  | b => multiDiv m b

/-- units.py:207-223 `Unit.__truediv__`. -/
def unitDivR (u : UnitV K) : Val K → PyM (Val K)
  | .unit o =>
    match pyDiv u.value o.value with
    | .error e => .error e
    | .ok v =>
      if u.unit = o.unit then
        if r (u.exp - o.exp) = 0 then .ok (.num v)
        else wrapUnit (mkUnit u.cls v u.unit (r (u.exp - o.exp)))
      else .ok (.multi ⟨.multi, v, [⟨u.unit, u.exp⟩], [⟨o.unit, o.exp⟩]⟩)
  | .multi m => unitDivMultiR r u m
  | b => unitDiv u b

/-- units.py:224-237 `Unit.__mul__`. -/
def unitMulR (u : UnitV K) : Val K → PyM (Val K)
  | .unit o =>
    if u.cls = o.cls ∧ u.unit = o.unit then
      wrapUnit (mkUnit u.cls (u.value * o.value) u.unit (r (u.exp + o.exp)))
    else .ok (.multi ⟨.multi, u.value * o.value, [⟨u.unit, 1⟩, ⟨o.unit, 1⟩], []⟩)
  | .multi m => multiMulUnitR r m u
  | b => unitMul u b

/-- units.py:245-249 `Unit.__pow__`. -/
def unitPowR (u : UnitV K) (e : ℚ) : PyM (Val K) :=
  match PyPow.pow u.value e with
  | .error err => .error err
  | .ok v => wrapUnit (mkUnit u.cls v u.unit (r (u.exp * e)))

/-- `a * b`. -/
def Val.mulR : Val K → Val K → PyM (Val K)
  | .unit u, b => unitMulR r u b
  | .multi m, b => multiMulR r m b
  | a, b => a.mul b

/-- `a / b`. -/
def Val.divR : Val K → Val K → PyM (Val K)
  | .unit u, b => unitDivR r u b
  | .multi m, b => multiDivR r m b
  | a, b => a.div b

/-- `a ** e`. -/
def Val.powR : Val K → ℚ → PyM (Val K)
  | .unit u, e => unitPowR r u e
  | .multi m, e => multiPowR r m e
  | a, e => a.pow e

end

end Verif
