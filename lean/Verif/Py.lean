import Mathlib.Algebra.Order.Field.Basic
import Mathlib.Data.Rat.Cast.Defs
import Mathlib.Algebra.Order.Field.Rat

/-!
# The fragment of Python the model needs

Strings are lists of characters, exceptions are values of `Except Err`, numbers are elements of any
type with the arithmetic operations.  Nothing in this file comes from /repo; it models the Python built-ins that the code uses.
-/

namespace Verif

/-- Python strings (unit symbols, unit strings). -/
abbrev Sym := List Char

open Lean in
/-- `c!"kg"` is the literal `['k', 'g'] : Sym`. -/
macro:max "c!" s:str : term => do
  let cs := s.getString.toList.map fun c => Syntax.mkCharLit c
  let cs := cs.toArray
  `(([$cs,*] : List Char))

/-- The exceptions raised by the code (one constructor per Python exception class), plus markers for
results outside the model (`complexResult`: a Python complex number; `nonFinite`: inf or nan;
`outOfFuel`: never reached, see the adequacy theorems). -/
inductive Err
  | typeError | valueError | keyError | indexError | zeroDivision | attributeError | nameError
  | unboundLocal
  | unitConversion | unknownPrefix | incorrectUnits
  | unsolvable | solutionNotSupported | overSpecified
  | outOfRange | invalidParentheses | improperEquation
  | complexResult | nonFinite | notRepresentable | outOfFuel
  deriving DecidableEq, Repr

/-- Result of a Python call. -/
abbrev PyM := Except Err

instance {α} [DecidableEq α] : DecidableEq (PyM α) := fun a b =>
  match a, b with
  | .ok x, .ok y => if h : x = y then isTrue (by rw [h]) else isFalse (by intro e; cases e; exact h rfl)
  | .error x, .error y =>
    if h : x = y then isTrue (by rw [h]) else isFalse (by intro e; cases e; exact h rfl)
  | .ok _, .error _ => isFalse (by intro e; cases e)
  | .error _, .ok _ => isFalse (by intro e; cases e)

/-! ## Strings -/

/-- `s.split(c)` for a one character separator: always at least one piece. -/
def splitOn (c : Char) : Sym → List Sym
  | [] => [[]]
  | x :: xs =>
    if x = c then [] :: splitOn c xs
    else match splitOn c xs with
      | [] => [[x]]
      | p :: ps => (x :: p) :: ps

/-- Characters removed by `str.strip()` (`str.isspace`). -/
def isSpace (c : Char) : Bool :=
  c.toNat ∈ [0x9, 0xa, 0xb, 0xc, 0xd, 0x1c, 0x1d, 0x1e, 0x1f, 0x20, 0x85, 0xa0, 0x1680,
    0x2000, 0x2001, 0x2002, 0x2003, 0x2004, 0x2005, 0x2006, 0x2007, 0x2008, 0x2009, 0x200a,
    0x2028, 0x2029, 0x202f, 0x205f, 0x3000]

/-- `s.strip()`. -/
def strip (s : Sym) : Sym :=
  ((s.dropWhile isSpace).reverse.dropWhile isSpace).reverse

/-- Value of an ASCII decimal digit. -/
def digitVal (c : Char) : Option ℕ :=
  if '0' ≤ c ∧ c ≤ '9' then some (c.toNat - '0'.toNat) else none

/-- Read the longest run of digits (single underscores allowed between digits, as in Python's `float`).
Returns the value, the number of digits and the rest. -/
def readDigits : (acc n : ℕ) → Sym → ℕ × ℕ × Sym
  | acc, n, [] => (acc, n, [])
  | acc, n, c :: cs =>
    match digitVal c with
    | some d => readDigits (acc * 10 + d) (n + 1) cs
    | none =>
      if c = '_' ∧ 0 < n then
        match cs with
        | c' :: cs' =>
          match digitVal c' with
          | some d => readDigits (acc * 10 + d) (n + 1) cs'
          | none => (acc, n, c :: c' :: cs')
        | [] => (acc, n, [c])
      else (acc, n, c :: cs)

/-- Optional sign. -/
def readSign : Sym → Bool × Sym
  | '-' :: cs => (true, cs)
  | '+' :: cs => (false, cs)
  | cs => (false, cs)

/-- `10 ** n` for an integer `n`. -/
def pow10 (neg : Bool) (n : ℕ) : ℚ := if neg then 1 / (10 ^ n : ℕ) else (10 ^ n : ℕ)

/-- Optional exponent part `e[+-]digits`; `none` if what is left is not a well formed exponent. -/
def readExp : Sym → Option ℚ
  | [] => some 1
  | c :: cs =>
    if c = 'e' ∨ c = 'E' then
      let (neg, cs) := readSign cs
      match readDigits 0 0 cs with
      | (v, n + 1, []) => let _ := n; some (pow10 neg v)
      | _ => none
    else none

/-- Unsigned decimal literal. -/
def readUnsigned (s : Sym) : Option ℚ :=
  let (iv, ni, rest) := readDigits 0 0 s
  match rest with
  | '.' :: rest' =>
    let (fv, nf, rest'') := readDigits 0 0 rest'
    if ni = 0 ∧ nf = 0 then none
    else (readExp rest'').map fun e => ((iv : ℚ) + (fv : ℚ) / ((10 ^ nf : ℕ) : ℚ)) * e
  | rest =>
    if ni = 0 then none
    else (readExp rest).map fun e => (iv : ℚ) * e

/-- ASCII lower case. -/
def lower (s : Sym) : Sym := s.map Char.toLower

/-- `float(s)` on ASCII strings: `ValueError` if malformed; `inf`/`nan` are outside the model. Exact: the
rounding to the nearest double is not modelled. -/
def pyFloat (s : Sym) : PyM ℚ :=
  let (neg, s) := readSign (strip s)
  if lower s = c!"inf" ∨ lower s = c!"infinity" ∨ lower s = c!"nan" then .error .nonFinite
  else match readUnsigned s with
    | some q => .ok (if neg then -q else q)
    | none => .error .valueError

/-! ## Numbers -/

/-- Python's `**` on real numbers with a (rational) exponent. -/
class PyPow (K : Type) where
  pow : K → ℚ → PyM K

/-- Executable instance, integer exponents only; used for replaying tests in the kernel. -/
instance : PyPow ℚ where
  pow x e :=
    if e.den ≠ 1 then .error .notRepresentable
    else if x = 0 ∧ e < 0 then .error .zeroDivision
    else .ok (if 0 ≤ e.num then x ^ e.num.toNat else 1 / x ^ (-e.num).toNat)

section
variable {K : Type} [Zero K] [Div K] [DecidableEq K]

/-- Python's `/`. -/
def pyDiv (x y : K) : PyM K := if y = 0 then .error .zeroDivision else .ok (x / y)

end

end Verif
