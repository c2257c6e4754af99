import Verif.Py

/-! # Matching parentheses, by counting -/

namespace Verif

/-- Every beginning of the text opens at least as many parentheses as it closes, and the whole text closes all of them. -/
def ParensMatch (s : Sym) : Prop :=
  (∀ p, p <+: s → p.count ')' ≤ p.count '(') ∧ s.count '(' = s.count ')'

/-- There is nothing but parentheses. -/
def OnlyParens (s : Sym) : Prop := ∀ c ∈ s, c = '(' ∨ c = ')'

/-- The parentheses of a text, without the rest. -/
def parensOf (s : Sym) : Sym := s.filter fun c => c = '(' ∨ c = ')'

end Verif
