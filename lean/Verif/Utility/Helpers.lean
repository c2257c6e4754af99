import Verif.Py
import Mathlib.Data.List.Sublists
import Mathlib.Data.Rat.Floor

/-!
# cheme_calculations/units/_utility.py

`get_prefix` is modelled with the units (Verif/Units/Basic.lean).
-/

namespace Verif

/-- `itertools.combinations(s, r)`: the selections of length `r`, in lexicographic order of positions. -/
def combinations {α : Type} : ℕ → List α → List (List α)
  | 0, _ => [[]]
  | _ + 1, [] => []
  | r + 1, x :: xs => (combinations r xs).map (x :: ·) ++ combinations (r + 1) xs

/-- _utility.py:6-8 `powerset`: `chain.from_iterable(combinations(s, r) for r in range(1, len(s)+1))`. -/
def powerset {α : Type} (s : List α) : List (List α) :=
  ((List.range s.length).map (· + 1)).flatMap (fun r => combinations r s)

/-- The superscript table, _utility.py:53-62. -/
def sups : List (Char × Char) :=
  [('0', '⁰'), ('1', '¹'), ('2', '²'), ('3', '³'), ('4', '⁴'), ('5', '⁵'), ('6', '⁶'), ('7', '⁷'), ('8', '⁸'), ('9', '⁹')]

/-- `sups.get(char, char)`. -/
def supChar (c : Char) : Char :=
  match sups.find? (fun p => p.1 = c) with
  | some p => p.2
  | none => c

/-- _utility.py:52-64 `to_sup`. -/
def toSup (s : Sym) : Sym := s.map supChar

/-- `sub in s` for strings. -/
def contains (s sub : Sym) : Bool := s.tails.any fun t => sub.isPrefixOf t

/-- A decimal digit as a character. -/
def decChar (d : Fin 10) : Char := Char.ofNat (48 + d)

/-- A float as Python prints it: sign, digits, fractional digits (no point if there are none), exponent suffix.  Which of
the spellings of a number is printed (the shortest that rounds back) is not modelled: the theorems hold for all. -/
structure FloatRepr where
  neg : Bool
  int : List (Fin 10)
  frac : List (Fin 10)
  /-- Sign and digits of the exponent, e.g. `(true, [0, 5])` for "e-05". -/
  exp : Option (Bool × List (Fin 10))

/-- `str(x)`. -/
def FloatRepr.str (x : FloatRepr) : Sym :=
  (if x.neg then ['-'] else []) ++ x.int.map decChar ++ (if x.frac = [] then [] else '.' :: x.frac.map decChar) ++
    (match x.exp with
      | none => []
      | some (n, ds) => 'e' :: (if n then '-' else '+') :: ds.map decChar)

/-- The natural number with the given decimal digits, most significant first. -/
def decVal (ds : List (Fin 10)) : ℕ := ds.foldl (fun acc d => 10 * acc + d.val) 0

/-- The number written by `x.str`. -/
def FloatRepr.val (x : FloatRepr) : ℚ :=
  (if x.neg then -1 else 1) * (decVal x.int + decVal x.frac / 10 ^ x.frac.length) *
    (match x.exp with
      | none => 1
      | some (n, ds) => if n then 1 / 10 ^ decVal ds else 10 ^ decVal ds)

/-- `int(x)` on a float: truncation towards zero. -/
def pyTrunc (q : ℚ) : ℤ := if 0 ≤ q then ⌊q⌋ else ⌈q⌉

/-- _utility.py:10-23 `remove_zero`, the number returned. -/
def removeZero (x : FloatRepr) : ℚ := if contains x.str c!".0" then pyTrunc x.val else x.val

end Verif
