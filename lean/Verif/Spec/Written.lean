import Verif.Py
import Mathlib.Data.List.Defs

/-!
# The text of a chemical equation, as a person writes it

Molecules with an optional coefficient in front, separated by "+", the two sides separated by "->".  Nothing is said about
what a molecule is: any text will do.
-/

namespace Verif

/-- No white space at either end. -/
def Trimmed (s : Sym) : Prop :=
  (∀ c, s.head? = some c → isSpace c = false) ∧ ∀ c, s.getLast? = some c → isSpace c = false

/-- Text that may stand in front of a molecule as its coefficient: "2", "4.0 ", "1/2", "n". -/
def OldCoeff (s : Sym) : Prop :=
  ∀ c ∈ s, ¬ ('A' ≤ c ∧ c ≤ 'Z') ∧ c ≠ '(' ∧ c ≠ ')' ∧ c ≠ '+' ∧ c ≠ '-' ∧ c ≠ '\n'

/-- Text that may be used as a molecule. -/
def MoleculeText (s : Sym) : Prop := s ≠ [] ∧ Trimmed s ∧ ∀ c ∈ s, c ≠ '+' ∧ c ≠ '-' ∧ c ≠ '\n'

/-- A molecule with its coefficient and the white space around. -/
structure Written where
  before : Sym
  old : Sym
  molecule : Sym
  after : Sym

namespace Written

/-- The coefficient and the molecule. -/
def shown (w : Written) : Sym := w.old ++ w.molecule

def text (w : Written) : Sym := w.before ++ w.shown ++ w.after

/-- Without the coefficient. -/
def bare (w : Written) : Written := { w with old := [] }

structure Valid (w : Written) : Prop where
  before : ∀ c ∈ w.before, isSpace c = true
  after : ∀ c ∈ w.after, isSpace c = true
  old : OldCoeff w.old
  head : ∀ c, w.old.head? = some c → isSpace c = false
  molecule : MoleculeText w.molecule

end Written

/-- An equation. -/
def writtenEquation (ls rs : List Written) : Sym :=
  List.intercalate ['+'] (ls.map Written.text) ++ c!"->" ++ List.intercalate ['+'] (rs.map Written.text)

/-- A balanced equation as it is documented to be printed: coefficient, space, molecule, " + " between the terms and " -> "
between the sides. -/
def printedEquation (l r : List (Sym × Sym)) : Sym :=
  List.intercalate c!" + " (l.map fun t => t.1 ++ ' ' :: t.2) ++ c!" -> " ++
    List.intercalate c!" + " (r.map fun t => t.1 ++ ' ' :: t.2)

end Verif
