import Verif.Utility.Helpers
import Verif.Units.Ops

/-! # What a printed unit stands for -/

namespace Verif

/-- Characters of a printed exponent: superscript digits, point and minus sign. -/
def expChars : List Char := c!"⁰¹²³⁴⁵⁶⁷⁸⁹.-"

/-- Symbols as users write them: no operators, no white space, nothing that could be part of an exponent. -/
def PlainSym (s : Sym) : Prop := s ≠ [] ∧ ∀ c ∈ s, c ≠ '*' ∧ c ≠ '/' ∧ c ≠ '^' ∧ isSpace c = false ∧ c ∉ expChars

/-- How exponents are displayed by units.py:178 and 926-949, `to_sup(str(remove_zero(e)))`: `print e` is the float as Python
prints it, `str` prints what `remove_zero` returns. -/
def display (str : ℚ → Sym) (print : ℚ → FloatRepr) (e : ℚ) : Sym := toSup (str (removeZero (print e)))

/-- Numbers printed with decimal digits, point and minus sign only, different numbers differently. -/
structure Decimal (str : ℚ → Sym) (E : Set ℚ) : Prop where
  chars : ∀ e ∈ E, str e ≠ [] ∧ ∀ c ∈ str e, c ∈ c!"0123456789.-"
  inj : Set.InjOn str E

/-- The factors printed before the slash: the numerator, and the denominator's negative powers with the sign removed. -/
def numeratorOf (top bot : UList) : UList :=
  top ++ (bot.filter fun a => a.exp < 0).map fun a => ⟨a.unit, -a.exp⟩

/-- The factors printed after the slash. -/
def denominatorOf (bot : UList) : UList := bot.filter fun a => ¬ a.exp < 0

end Verif
