import Verif.Py
import Verif.Utility.Helpers
import Mathlib.Data.Rat.Floor
import Mathlib.Data.List.Dedup

/-!
# cheme_calculations/reactions/balance.py

`\d` and `int` are modelled on ASCII digits.  Numbers are exact; where the code uses floats the model takes the float
operation as a parameter (`solver`, `fdiv`), so theorems hold for every solver and rounding that meets their hypotheses.
The iteration order of a set is a parameter too.
-/

namespace Verif

/-- A `defaultdict` from element symbols to counts, in insertion order. -/
abbrev AtomDict := List (Sym × ℕ)

/-- `d[e]` with the default 0. -/
def AtomDict.get (d : AtomDict) (e : Sym) : ℕ :=
  match d with
  | [] => 0
  | (k, v) :: r => if k = e then v else AtomDict.get r e

/-- `d[e] += n`. -/
def AtomDict.add (d : AtomDict) (e : Sym) (n : ℕ) : AtomDict :=
  match d with
  | [] => [(e, n)]
  | (k, v) :: r => if k = e then (k, v + n) :: r else (k, v) :: AtomDict.add r e n

def isUpperC (c : Char) : Bool := 'A' ≤ c && c ≤ 'Z'
def isLowerC (c : Char) : Bool := 'a' ≤ c && c ≤ 'z'
def isDigitC (c : Char) : Bool := '0' ≤ c && c ≤ '9'

/-- balance.py:30, `re.findall("[A-Z][a-z]?\d+|[A-Z][a-z]?", s)`: the matches as (letters, digits).  The first argument is
the match in progress. -/
def atomTokens : Option (Sym × Sym) → Sym → List (Sym × Sym)
  | none, [] => []
  | some t, [] => [t]
  | none, c :: cs => if isUpperC c then atomTokens (some ([c], [])) cs else atomTokens none cs
  | some (name, ds), c :: cs =>
    if isDigitC c then atomTokens (some (name, ds ++ [c])) cs
    else if isLowerC c && ds.isEmpty && name.length = 1 then atomTokens (some (name ++ [c], [])) cs
    else if isUpperC c then (name, ds) :: atomTokens (some ([c], [])) cs
    else (name, ds) :: atomTokens none cs

/-- `int(ds)` for a nonempty string of digits. -/
def natOfDigits (ds : Sym) : ℕ := ds.foldl (fun acc c => 10 * acc + (c.toNat - 48)) 0

/-- balance.py:29-39 `_get_chemical_dict`. -/
def chemDict (d : AtomDict) (group : Sym) (multiplier : ℕ) : AtomDict :=
  (atomTokens none group).foldl
    (fun d t => d.add t.1 (if t.2.isEmpty then 1 * multiplier else natOfDigits t.2 * multiplier)) d

/-- `re.findall("\(.+\)", line)` on a line without line breaks: from the first "(" to the last ")", at least one
character apart; at most one match. -/
def lineGroup (line : Sym) : Option Sym :=
  match line.dropWhile (fun c => c ≠ '(') with
  | [] => none
  | p :: rest =>
    let body := (rest.reverse.dropWhile (fun c => c ≠ ')')).reverse
    if 2 ≤ body.length then some (p :: body) else none

/-- balance.py:60; "." does not match a line break, so the matches are those of the lines. -/
def parenGroups (molecule : Sym) : List Sym := (splitOn '\n' molecule).filterMap lineGroup

/-- balance.py:66-67, a backslash before every parenthesis. -/
def escapeParens (s : Sym) : Sym := s.flatMap fun c => if c = '(' ∨ c = ')' then ['\\', c] else [c]

/-- Characters that are special in a regular expression (other than the parentheses, which are escaped). -/
def regexSpecial (c : Char) : Bool := c ∈ c!".^$*+?{}[]\\|"

/-- balance.py:80, `re.sub(group + "\d+", "", molecule)` for a group without special characters.  `skip` counts the
characters of a match still to be dropped, `digits` says that the digits after a match are being dropped. -/
def removeGroup (g : Sym) : (skip : ℕ) → (digits : Bool) → Sym → Sym
  | _, _, [] => []
  | skip + 1, digits, _ :: cs => removeGroup g skip digits cs
  | 0, digits, c :: cs =>
    if digits && isDigitC c then removeGroup g 0 true cs
    else if g.isPrefixOf (c :: cs) && ((c :: cs).drop g.length).head?.any isDigitC then
      removeGroup g (g.length - 1) true cs
    else c :: removeGroup g 0 false cs

/-- balance.py:63-84, the loop over the groups of a molecule.  A group with characters special in a regular expression
is outside the model. -/
def parseGroups : List Sym → Sym → PyM (List AtomDict)
  | [], _ => .ok []
  | g :: gs, molecule =>
    match molecule.dropWhile (fun c => c ≠ ')') with
    | [] => .error .valueError
    | [_] => .error .indexError
    | _ :: c :: _ => match digitVal c with
      | none => .error .valueError
      | some multiplier =>
        if g.any regexSpecial then .error .notRepresentable
        else
          let d := chemDict [] (escapeParens g) multiplier
          let molecule := removeGroup g 0 false molecule
          match parseGroups gs molecule with
          | .error e => .error e
          | .ok rest => .ok (chemDict d molecule 1 :: rest)

/-- balance.py:60-92, the body of the loop over the molecules: the dictionaries appended. -/
def parseMolecule (molecule : Sym) : PyM (List AtomDict) :=
  match parenGroups molecule with
  | [] => .ok [chemDict [] molecule 1]
  | g :: gs => parseGroups (g :: gs) molecule

/-- balance.py:55-94 `_parse_equation_side`. -/
def parseSide : List Sym → PyM (List AtomDict)
  | [] => .ok []
  | molecule :: side =>
    match parseMolecule molecule with
    | .error e => .error e
    | .ok l => match parseSide side with
      | .error e => .error e
      | .ok r => .ok (l ++ r)

/-- `s.split("->")`. -/
def splitArrow : Sym → List Sym
  | [] => [[]]
  | '-' :: '>' :: cs => [] :: splitArrow cs
  | c :: cs => match splitArrow cs with
    | [] => [[c]]
    | p :: ps => (c :: p) :: ps

/-- The loop of `Fraction.limit_denominator` (Lib/fractions.py): `(p0, q0, p1, q1)` at the break. -/
def limitLoop (M : ℤ) : (fuel : ℕ) → (p0 q0 p1 q1 n d : ℤ) → ℤ × ℤ × ℤ × ℤ
  | 0, p0, q0, p1, q1, _, _ => (p0, q0, p1, q1)
  | fuel + 1, p0, q0, p1, q1, n, d =>
    let a := n / d
    let q2 := q0 + a * q1
    if M < q2 then (p0, q0, p1, q1)
    else limitLoop M fuel p1 q1 (p0 + a * p1) q2 d (n - a * d)

/-- `Fraction.limit_denominator(M)` (Lib/fractions.py). -/
def limitDen (M : ℤ) (x : ℚ) : ℚ :=
  if (x.den : ℤ) ≤ M then x
  else
    let (p0, q0, p1, q1) := limitLoop M (x.den + 1) 0 1 1 0 x.num x.den
    let k := (M - q0) / q1
    let bound1 : ℚ := (p0 + k * p1 : ℤ) / (q0 + k * q1 : ℤ)
    let bound2 : ℚ := p1 / q1
    if |bound2 - x| ≤ |bound1 - x| then bound2 else bound1

/-- The default of `limit_denominator`. -/
def maxDen : ℤ := 1000000

/-- `math.gcd(*l)`. -/
def gcdList (l : List ℤ) : ℕ := l.foldr (fun a g => Nat.gcd a.natAbs g) 0

/-- `math.lcm(*l)`. -/
def lcmList (l : List ℕ) : ℕ := l.foldr Nat.lcm 1

/-- balance.py:43-52 `_get_fraction_lcm`; `fdiv` is Python's `int / int`. -/
def fractionLcm (fdiv : ℤ → ℤ → ℚ) (xs : List ℚ) : PyM ℚ :=
  let numerator := gcdList (xs.map (·.num))
  let denominator := lcmList (xs.map (·.den))
  if numerator = 0 then .error .zeroDivision
  else .ok (limitDen maxDen (fdiv denominator numerator))

/-- balance.py:166-170 and 172-177: a column of the matrix. -/
def atomColumn (unique : List Sym) (sign : ℤ) (d : AtomDict) : List ℤ := unique.map fun e => sign * d.get e

/-- balance.py:187-202: from the solution of the linear system to the coefficients. -/
def coefficients (fdiv : ℤ → ℤ → ℚ) (x : List ℚ) : PyM (List ℚ) :=
  let x := x.map (limitDen maxDen)
  match fractionLcm fdiv x with
  | .error e => .error e
  | .ok multiple =>
    let sol := (x.map (· * multiple) ++ [multiple]).map pyTrunc
    let gcd := gcdList sol
    if gcd = 0 then .error .zeroDivision
    else .ok (sol.map fun c => fdiv c gcd)

/-- What `balance_equation` computes before formatting. -/
structure Balanced where
  reactants : List Sym
  products : List Sym
  reactCoeff : List ℚ
  productCoeff : List ℚ
  deriving DecidableEq

/-- balance.py:97-205 `balance_equation`, up to the formatting.  `setOrder l` is `list(set(l))`, `solver` is
`np.linalg.lstsq` applied to the columns but the last and the last column.  Line 135 tests a function object, which is
always true, so the check of the parentheses never runs.  `ImproperChemicalEquation` (15, 162) is a class without
constructor parameters, so building it raises `TypeError`. -/
def balanceCore (setOrder : List Sym → List Sym) (solver : List (List ℤ) → List ℤ → List ℚ) (fdiv : ℤ → ℤ → ℚ)
    (equation : Sym) : PyM Balanced :=
  match splitArrow equation with
  | [leftSide, rightSide] =>
    let reactants := (splitOn '+' leftSide).map strip
    let products := (splitOn '+' rightSide).map strip
    match parseSide reactants with
    | .error e => .error e
    | .ok reactantList => match parseSide products with
      | .error e => .error e
      | .ok productList =>
        let uniqueReactants := setOrder (reactantList.flatMap fun d => d.map (·.1))
        let uniqueProducts := setOrder (productList.flatMap fun d => d.map (·.1))
        if ¬ (∀ e ∈ uniqueProducts, e ∈ uniqueReactants) ∨ ¬ (∀ e ∈ uniqueReactants, e ∈ uniqueProducts) then
          .error .typeError
        else
          let cols := reactantList.map (atomColumn uniqueReactants 1) ++ productList.map (atomColumn uniqueReactants (-1))
          let x := solver cols.dropLast (cols.getLast?.getD [])
          match coefficients fdiv (x.map fun v => -v) with
          | .error e => .error e
          | .ok sol => .ok ⟨reactants, products, sol.take reactants.length, sol.drop reactants.length⟩
  | _ => .error .valueError

/-- `" + ".join(...)`. -/
def joinPlus : List Sym → Sym
  | [] => []
  | [a] => a
  | a :: r => a ++ c!" + " ++ joinPlus r

/-- balance.py:97-211 `balance_equation`; `fmt` is the formatting of a float. -/
def balanceEquation (fmt : ℚ → Sym) (setOrder : List Sym → List Sym) (solver : List (List ℤ) → List ℤ → List ℚ)
    (fdiv : ℤ → ℤ → ℚ) (equation : Sym) : PyM Sym :=
  match balanceCore setOrder solver fdiv equation with
  | .error e => .error e
  | .ok b =>
    let side (cs : List ℚ) (ms : List Sym) := joinPlus (List.zipWith (fun c m => fmt c ++ [' '] ++ m) cs ms)
    .ok (side b.reactCoeff b.reactants ++ c!" -> " ++ side b.productCoeff b.products)

end Verif
