import Verif.Py

/-!
# Unit lists: parsing, prefixes, cancelling, combining, deconstructing, simplifying

Model of `cheme_calculations/units/units.py` (referred to as units.py) lines 33-125 and 303-750 and of
`cheme_calculations/units/_utility.py` lines 26-48.  `BaseUnit` objects are immutable pairs here; the loops
that mutate them in place are written as functions returning the new lists.  That is faithful because
every caller passes freshly built lists whose entries are pairwise distinct objects
(`deepcopy`, list comprehensions building `BaseUnit`s, or `parse_units`); Units/Memory models the
objects and C80 proves it.
-/

namespace Verif

/-- units.py:303-314 `BaseUnit`: a symbol with an exponent. -/
structure BaseUnit where
  unit : Sym
  exp : ℚ
  deriving DecidableEq, Repr

/-- A half of a compound unit. -/
abbrev UList := List BaseUnit

/-- units.py:328-331 `BaseUnit.__pow__`. -/
def BaseUnit.pow (u : BaseUnit) (e : ℚ) : BaseUnit := ⟨u.unit, u.exp * e⟩

/-! ## Parsing, units.py:486-542 -/

/-- units.py:510-517 and 532-539: one factor of a product, `unit` or `unit^exponent`. -/
def parsePiece (s : Sym) : PyM BaseUnit :=
  if '^' ∈ s then
    match splitOn '^' s with
    | [u, e] => match pyFloat e with
      | .ok q => .ok ⟨u, q⟩
      | .error err => .error err
    | _ => .error .valueError
  else .ok ⟨s, 1⟩

/-- Left to right evaluation of `f` on a list, stopping at the first exception. -/
def mapPy {α β : Type} (f : α → PyM β) : List α → PyM (List β)
  | [] => .ok []
  | x :: xs => match f x with
    | .error e => .error e
    | .ok y => match mapPy f xs with
      | .error e => .error e
      | .ok ys => .ok (y :: ys)

/-- units.py:504-524: the `try` block.  A `ValueError` (not exactly one `/`, or a malformed
denominator) makes the whole string the numerator. -/
def parseBottom (s : Sym) : PyM (Sym × UList) :=
  match splitOn '/' s with
  | [t, b] => match mapPy parsePiece (splitOn '*' (strip b)) with
    | .ok bs => .ok (t, bs)
    | .error .valueError => .ok (s, [])
    | .error e => .error e
  | _ => .ok (s, [])

/-- units.py:486-542 `MultiUnit.parse_units`. -/
def parseUnits (s : Sym) : PyM (UList × UList) :=
  match parseBottom s with
  | .error e => .error e
  | .ok (t, bs) => match mapPy parsePiece (splitOn '*' (strip t)) with
    | .error e => .error e
    | .ok ts => .ok (ts, bs)

/-! ## Prefixes -/

/-- _utility.py:45: the letters treated as prefixes (note: not `u`). -/
def prefixLetters : List Char := ['m', 'c', 'd', 'k', 'M']

/-- _utility.py:45: symbols exempt from prefix splitting. -/
def prefixExceptions : List Sym := [c!"min", c!"cP", c!"mol"]

/-- _utility.py:26-48 `get_prefix`; `unit[0]` raises IndexError on the empty string. -/
def getPrefix : Sym → PyM (Sym × Sym)
  | [] => .error .indexError
  | [c] => .ok ([], [c])
  | c :: cs =>
    if c ∉ prefixLetters ∨ (c :: cs) ∈ prefixExceptions then .ok ([], c :: cs)
    else .ok ([c], cs)

/-- units.py:36-43 `prefix_factors`. -/
def prefixFactor (p : Sym) : Option ℚ :=
  if p = c!"u" then some (1 / 1000000)
  else if p = c!"m" then some (1 / 1000)
  else if p = c!"c" then some (1 / 100)
  else if p = c!"d" then some (1 / 10)
  else if p = c!"k" then some 1000
  else if p = c!"M" then some 1000000
  else none

/-- units.py:390-393: prefix and stripped unit of one entry, `kg` being exempt. -/
def stripUnit (u : BaseUnit) : PyM (Sym × BaseUnit) :=
  if u.unit = c!"kg" then .ok ([], u)
  else match getPrefix u.unit with
    | .error e => .error e
    | .ok (p, s) => .ok (p, ⟨s, u.exp⟩)

section
variable {K : Type} [Zero K] [One K] [Add K] [Sub K] [Mul K] [Div K] [Neg K] [NatCast K] [RatCast K] [PyPow K]

/-- units.py:397-403 (`inv = false`) and 405-412 (`inv = true`): accumulate the factor.  Any exception of
the power is turned into `UnknownPrefix` by the bare `except`. -/
def prefixFactorLoop (inv : Bool) : K → List (Sym × BaseUnit) → PyM K
  | f, [] => .ok f
  | f, (p, u) :: r =>
    if p = [] then prefixFactorLoop inv f r
    else match prefixFactor p with
      | none => .error .unknownPrefix
      | some q => match PyPow.pow (if inv then 1 / (q : K) else (q : K)) u.exp with
        | .error _ => .error .unknownPrefix
        | .ok x => prefixFactorLoop inv (f * x) r

/-- units.py:376-414 `MultiUnit.deconstruct_unit_prefixes`. -/
def deconstructPrefixes (top bot : UList) : PyM (UList × UList × K) :=
  match mapPy stripUnit top with
  | .error e => .error e
  | .ok ts => match mapPy stripUnit bot with
    | .error e => .error e
    | .ok bs => match prefixFactorLoop (K := K) false 1 ts with
      | .error e => .error e
      | .ok f => match prefixFactorLoop (K := K) true f bs with
        | .error e => .error e
        | .ok f' => .ok (ts.map (·.2), bs.map (·.2), f')

end

/-! ## Cancelling and combining -/

/-- units.py:443-446: the inner loop of `cancel_units` for one numerator entry. -/
def cancelInner (u1 : BaseUnit) : UList → BaseUnit × UList
  | [] => (u1, [])
  | u2 :: rest =>
    if u1.unit = u2.unit ∧ u1.exp ≠ 0 then
      let r := cancelInner ⟨u1.unit, u1.exp - u2.exp⟩ rest
      (r.1, ⟨u2.unit, 0⟩ :: r.2)
    else
      let r := cancelInner u1 rest
      (r.1, u2 :: r.2)

/-- units.py:442-446: both loops. -/
def cancelLoop : UList → UList → UList × UList
  | [], bot => ([], bot)
  | u1 :: top, bot =>
    let r := cancelInner u1 bot
    let s := cancelLoop top r.2
    (r.1 :: s.1, s.2)

/-- units.py:422-463 `MultiUnit.cancel_units`. -/
def cancelUnits (top bot : UList) : UList × UList :=
  let r := cancelLoop top bot
  (r.1.filter (fun u => 0 < u.exp),
   ((r.1.filter (fun u => u.exp < 0)).map fun u => ⟨u.unit, -u.exp⟩) ++
     r.2.filter (fun u => u.exp ≠ 0))

/-- units.py:480-483: the inner loop of `combine_units` over a stretch of other entries. -/
def absorb (u1 : BaseUnit) : UList → BaseUnit × UList
  | [] => (u1, [])
  | u2 :: rest =>
    if u1.unit = u2.unit then
      let r := absorb ⟨u1.unit, u1.exp + u2.exp⟩ rest
      (r.1, ⟨u2.unit, 0⟩ :: r.2)
    else
      let r := absorb u1 rest
      (r.1, u2 :: r.2)

/-- units.py:479-483: the outer loop at index `i`: the inner loop visits the entries before `i`, skips `i`,
and visits the entries after it. -/
def combineAt (l : UList) (i : ℕ) : UList :=
  match l.drop i with
  | [] => l
  | u :: post =>
    let r := absorb u (l.take i)
    let s := absorb r.1 post
    r.2 ++ s.1 :: s.2

/-- units.py:464-484 `MultiUnit.combine_units`. -/
def combineUnits (l : UList) : UList := (List.range l.length).foldl combineAt l

/-! ## Deconstruction, units.py:109-117 and 547-609 -/

/-- units.py:109-117 `DECONSTRUCTABLE_UNITS`, in insertion order. -/
def deconTable : List (Sym × Sym) :=
  [(c!"Pa", c!"kg/m*s^2"), (c!"J", c!"kg*m^2/s^2"), (c!"W", c!"J/s"), (c!"psi", c!"lbf/in^2"),
   (c!"cP", c!"g/m*s"), (c!"C", c!"A*s"), (c!"V", c!"kg*m^2/s^3*A")]

/-- Dictionary lookup. -/
def lookupSym {α : Type} (k : Sym) : List (Sym × α) → Option α
  | [] => none
  | (k', v) :: r => if k = k' then some v else lookupSym k r

/-- units.py:579-584: definition of a deconstructable unit raised to the power of its occurrence. -/
def deconDef (u : BaseUnit) : Option (PyM (UList × UList)) :=
  match lookupSym u.unit deconTable with
  | none => none
  | some str => some (match parseUnits str with
    | .error e => .error e
    | .ok (t, b) => .ok (t.map (·.pow u.exp), b.map (·.pow u.exp)))

/-- units.py:578-591 (and, with the roles of the lists exchanged, 593-607): one `for` loop over a list
that is edited while it is enumerated.  `done` are the entries before the loop index, `rem` the entries
from it on; after a deletion the entry that moves into the freed place is skipped.  Returns the edited
list, the other list and whether there was a hit. -/
def deconPass : ℕ → (done rem other : UList) → Bool → PyM (UList × UList × Bool)
  | _, done, [], other, hit => .ok (done, other, hit)
  | 0, _, _ :: _, _, _ => .error .outOfFuel
  | n + 1, done, u :: rem, other, hit =>
    match deconDef u with
    | none => deconPass n (done ++ [u]) rem other hit
    | some (.error e) => .error e
    | some (.ok (t, b)) =>
      let rest := rem ++ t
      deconPass n (done ++ rest.take 1) (rest.drop 1) (other ++ b) true

/-- Loop weight: enough fuel for one `for` loop. -/
def passWeight (s : Sym) : ℕ :=
  if s = c!"W" then 4
  else if s = c!"J" ∨ s = c!"C" ∨ s = c!"V" then 3
  else if s = c!"Pa" ∨ s = c!"psi" ∨ s = c!"cP" then 2
  else 1

def passFuel (l : UList) : ℕ := (l.map fun u => passWeight u.unit).sum

/-- units.py:578-607: the body of the `while` loop. -/
def deconRound (top bot : UList) : PyM (UList × UList × Bool) :=
  match deconPass (passFuel top) [] top bot false with
  | .error e => .error e
  | .ok (top, bot, h1) =>
    match deconPass (passFuel bot) [] bot top false with
    | .error e => .error e
    | .ok (bot, top, h2) => .ok (top, bot, h1 || h2)

/-- Number of replacements still possible in a list. -/
def deconWeight (s : Sym) : ℕ :=
  if s = c!"W" then 2
  else if s = c!"J" ∨ s = c!"C" ∨ s = c!"V" ∨ s = c!"Pa" ∨ s = c!"psi" ∨ s = c!"cP" then 1
  else 0

def deconFuel (l : UList) : ℕ := (l.map fun u => deconWeight u.unit).sum

/-- units.py:575-607: the `while unit_match` loop. -/
def deconLoop : ℕ → UList → UList → PyM (UList × UList)
  | 0, _, _ => .error .outOfFuel
  | n + 1, top, bot =>
    match deconRound top bot with
    | .error e => .error e
    | .ok (top, bot, hit) => if hit then deconLoop n top bot else .ok (top, bot)

/-- units.py:547-609 `MultiUnit.deconstruct_units(one_pass=False)`. -/
def deconstructUnits (top bot : UList) : PyM (UList × UList) :=
  deconLoop (deconFuel top + deconFuel bot + 1) top bot

/-- units.py:547-609 `MultiUnit.deconstruct_units(one_pass=True)`. -/
def deconstructOnce (top bot : UList) : PyM (UList × UList) :=
  match deconRound top bot with
  | .error e => .error e
  | .ok (top, bot, _) => .ok (top, bot)

/-! ## Simplification, units.py:119-123, 339-347, 611-750 -/

/-- units.py:119-123 `UNIT_SIMPLIFICATIONS`. -/
def simplTable : List (Sym × Sym) :=
  [(c!"kg/s^3*K", c!"W/m^2*K"), (c!"kg/K*s^3", c!"W/m^2*K"), (c!"kg/s^3", c!"W/m^2")]

/-- units.py:339-347 `do_common_simplifications` (loop over the table). -/
def commonSimplLoop (top bot : UList) : List (Sym × Sym) → PyM (UList × UList)
  | [] => .ok (top, bot)
  | (s, r) :: rest => match parseUnits s with
    | .error e => .error e
    | .ok (ct, cb) =>
      if ct = top ∧ cb = bot then parseUnits r else commonSimplLoop top bot rest

/-- units.py:339-347 `do_common_simplifications`. -/
def commonSimplifications (top bot : UList) : PyM (UList × UList) := commonSimplLoop top bot simplTable

/-- units.py:659-663: the symbols of the definition occur in the list (sets of `BaseUnit`s with all
exponents set to 1 compare by symbol). -/
def symbolsIn (base l : UList) : Bool :=
  base.all fun u => decide (u.unit ∈ l.map (·.unit))

/-- units.py:666-674 / 679-686: every occurrence has at least the exponent of the definition. -/
def expsMatch (base l : UList) : Bool :=
  base.all fun u1 => l.all fun u2 => decide (u1.unit = u2.unit → ¬ u2.exp < u1.exp)

/-- units.py:696-700 / 702-706: inner loop lowering `num_matches`. (`u1.exp ≠ 0` for every definition.) -/
def lowerInner (l : UList) (n : ℚ) (u1 : BaseUnit) : ℚ :=
  l.foldl (fun n u2 =>
    if u1.unit = u2.unit then (if u2.exp / u1.exp < n then u2.exp / u1.exp else n) else n) n

/-- units.py:695-700 / 701-706: the loop lowering `num_matches`. -/
def lowerMatches (base l : UList) (n : ℚ) : ℚ := base.foldl (lowerInner l) n

/-- units.py:642-706: number of times a definition fits, `none` when the loop `continue`s. -/
def countMatches (top bot : UList) (d : Sym) : PyM (Option ℚ) :=
  match parseUnits d with
  | .error e => .error e
  | .ok (bt, bb) =>
    if !symbolsIn bt top || !symbolsIn bb bot then .ok none
    else if !expsMatch bt top then .ok none
    else if !expsMatch bb bot then .ok none
    else .ok (some (lowerMatches bb bot (lowerMatches bt top 100)))

/-- units.py:640-710: fill `matches_dict` (the definitions are distinct, so `value[0]` of line 708 is the
key of the current definition). -/
def matchLoop (top bot : UList) : List (Sym × Sym) → PyM (List (Sym × ℚ))
  | [] => .ok []
  | (k, d) :: rest => match countMatches top bot d with
    | .error e => .error e
    | .ok r => match matchLoop top bot rest with
      | .error e => .error e
      | .ok ms => match r with
        | none => .ok ms
        | some n => .ok ((k, n) :: ms)

/-- units.py:720 `max(matches_dict, key=matches_dict.get)`: the first key with the greatest value. -/
def bestMatch (m : Sym × ℚ) : List (Sym × ℚ) → Sym × ℚ
  | [] => m
  | x :: xs => if m.2 < x.2 then bestMatch x xs else bestMatch m xs

/-- units.py:725-742: replace the best match. -/
def applyMatch (top bot : UList) (k : Sym) (n : ℚ) : PyM (UList × UList) :=
  match lookupSym k deconTable with
  | none => .error .keyError
  | some d => match parseUnits d with
    | .error e => .error e
    | .ok (bt, bb) =>
      let r := cancelUnits (top ++ bb.map (·.pow n)) (bot ++ bt.map (·.pow n))
      .ok (r.1 ++ [⟨k, n⟩], r.2)

/-- units.py:638-745: the `while unit_match` loop. -/
def simplLoop : ℕ → UList → UList → PyM (UList × UList)
  | 0, _, _ => .error .outOfFuel
  | n + 1, top, bot =>
    match matchLoop top bot deconTable with
    | .error e => .error e
    | .ok [] => .ok (top, bot)
    | .ok (m :: ms) =>
      if ((m :: ms).map (·.2)).sum = 0 then .ok (top, bot)
      else
        let b := bestMatch m ms
        match applyMatch top bot b.1 b.2 with
        | .error e => .error e
        | .ok (top', bot') => simplLoop n top' bot'

/-- Total absolute exponent of a symbol in a list. -/
def absExp (s : Sym) (l : UList) : ℚ := (l.map fun u => if u.unit = s then |u.exp| else 0).sum

/-- Potential of the simplification loop: decreases by at least one in each round. -/
def simplPotential (top bot : UList) : ℚ :=
  2 * (absExp c!"kg" top + absExp c!"kg" bot) + (absExp c!"J" top + absExp c!"J" bot)
    + (absExp c!"lbf" top + absExp c!"lbf" bot) + (absExp c!"g" top + absExp c!"g" bot)
    + (absExp c!"A" top + absExp c!"A" bot)

/-- units.py:611-750 `MultiUnit.simplify_units`. -/
def simplifyUnits (top bot : UList) : PyM (UList × UList) :=
  match simplLoop ((simplPotential top bot).num.toNat + 1) top bot with
  | .error e => .error e
  | .ok (top, bot) => commonSimplifications top bot

end Verif
