import Verif.Units.Ops

/-! # Documented syntax of unit strings, written out independently of the parser -/

namespace Verif

/-- A decimal literal: optional minus sign, digits, optional fraction. -/
structure DecLit where
  neg : Bool
  int : List (Fin 10)
  frac : List (Fin 10)

/-- Character of a digit. -/
def digitChar (d : Fin 10) : Char := Char.ofNat (48 + d.val)

/-- Value of a digit string. -/
def digitsVal (l : List (Fin 10)) : ℕ := l.foldl (fun n d => n * 10 + d.val) 0

/-- How the literal is written. -/
def DecLit.text (d : DecLit) : Sym :=
  (if d.neg then c!"-" else []) ++ d.int.map digitChar ++
    (if d.frac = [] then [] else '.' :: d.frac.map digitChar)

/-- The number it denotes. -/
def DecLit.value (d : DecLit) : ℚ :=
  (if d.neg then -1 else 1) * ((digitsVal d.int : ℚ) + (digitsVal d.frac : ℚ) / 10 ^ d.frac.length)

/-- A factor of a unit string: a symbol, optionally with an exponent. -/
structure Factor where
  sym : Sym
  exp : Option DecLit

def Factor.text (f : Factor) : Sym :=
  match f.exp with
  | none => f.sym
  | some d => f.sym ++ '^' :: d.text

def Factor.denotes (f : Factor) : BaseUnit :=
  match f.exp with
  | none => ⟨f.sym, 1⟩
  | some d => ⟨f.sym, d.value⟩

/-- Symbols: nonempty, no operators, no white space; literals have at least one integer digit. -/
def Factor.WellFormed (f : Factor) : Prop :=
  f.sym ≠ [] ∧ (∀ c ∈ f.sym, c ≠ '*' ∧ c ≠ '/' ∧ c ≠ '^' ∧ isSpace c = false) ∧
  ∀ d, f.exp = some d → d.int ≠ []

/-- Factors separated by `*`. -/
def product : List Factor → Sym
  | [] => []
  | [f] => f.text
  | f :: g :: r => f.text ++ '*' :: product (g :: r)

/-- A unit string: numerator, and the denominator after a `/` when there is one. -/
def unitString (top bot : List Factor) : Sym :=
  product top ++ (if bot = [] then [] else '/' :: product bot)

/-- A factor of a unit string that cannot be read: two or more `^`, or an exponent that is not a number. -/
def BadFactor (f : Sym) : Prop :=
  2 ≤ f.count '^' ∨ ∃ u e, f = u ++ '^' :: e ∧ '^' ∉ u ∧ '^' ∉ e ∧ pyFloat e = .error .valueError

end Verif
