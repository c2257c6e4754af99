import Verif.Py
import Verif.Utility.Helpers

/-!
# Chemical formulas and their composition (specification)

Written without reference to the parser.
-/

namespace Verif

/-- An element symbol with an optional count: `O`, `Na`, `C12`. -/
structure Atom where
  up : Char
  lo : Option Char
  cnt : List (Fin 10)

namespace Atom

/-- An upper case letter, possibly a lower case letter. -/
def Valid (a : Atom) : Prop := ('A' ≤ a.up ∧ a.up ≤ 'Z') ∧ ∀ c, a.lo = some c → 'a' ≤ c ∧ c ≤ 'z'

/-- The symbol of the element. -/
def name (a : Atom) : Sym := a.up :: a.lo.toList

/-- The number of atoms: 1 unless a count is written. -/
def count (a : Atom) : ℕ := if a.cnt = [] then 1 else decVal a.cnt

/-- The text. -/
def text (a : Atom) : Sym := a.name ++ a.cnt.map decChar

end Atom

/-- A formula: atoms, possibly a parenthesised group of atoms with a one digit multiplier, atoms. -/
structure Formula where
  pre : List Atom
  group : Option (List Atom × Fin 10)
  post : List Atom

/-- Atoms of element `e` in a list. -/
def atomsOf (e : Sym) (l : List Atom) : ℕ := (l.map fun a => if a.name = e then a.count else 0).sum

namespace Formula

/-- All symbols are element symbols and the group is not empty. -/
def Valid (f : Formula) : Prop :=
  (∀ a ∈ f.pre, a.Valid) ∧ (∀ a ∈ f.post, a.Valid) ∧ ∀ g, f.group = some g → g.1 ≠ [] ∧ ∀ a ∈ g.1, a.Valid

/-- How many atoms of `e` the formula contains. -/
def composition (f : Formula) (e : Sym) : ℕ :=
  atomsOf e f.pre + atomsOf e f.post + match f.group with
    | none => 0
    | some (g, m) => m * atomsOf e g

/-- The element symbol is written in the formula. -/
def Mentions (f : Formula) (e : Sym) : Prop :=
  (∃ a ∈ f.pre, a.name = e) ∨ (∃ a ∈ f.post, a.name = e) ∨ ∃ g, f.group = some g ∧ ∃ a ∈ g.1, a.name = e

/-- The text. -/
def text (f : Formula) : Sym :=
  f.pre.flatMap Atom.text ++ (match f.group with
    | none => []
    | some (g, m) => '(' :: g.flatMap Atom.text ++ [')', decChar m]) ++ f.post.flatMap Atom.text

end Formula

end Verif
