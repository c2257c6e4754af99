import Verif.Spec.Units

/-!
# When units cancel

Written without reference to the algorithms of the model.  A formal weight gives every symbol a rational number so that
derived units weigh what their definition weighs and prefixes weigh nothing (`kg` is a unit of its own here, as in the
library: `kg/g` is a number only up to the factor 1000).  The units of `top/bot` cancel when their total weight is zero
for every formal weight.
-/

namespace Verif

structure FormalWeight (w : Sym → ℚ) : Prop extends DerivedLaws w where
  si : ∀ p ∈ siPrefixes, ∀ s ∈ prefixStems, p.1 :: s ≠ c!"kg" → w (p.1 :: s) = w s

/-- The units of `top/bot` cancel. -/
def UnitsCancel (top bot : UList) : Prop := ∀ w : Sym → ℚ, FormalWeight w → net w top bot = 0

/-- The symbol without its prefix. -/
def stemOf : Sym → Sym
  | [] => []
  | c :: st => if c :: st ≠ c!"kg" ∧ st ∈ prefixStems ∧ c ∈ siPrefixes.map (·.1) then st else c :: st

/-- How often the base symbol `s` is written above the line when the unit `x` is written out in base units. -/
def above (s x : Sym) : ℕ :=
  List.count s (if x = c!"Pa" then [c!"kg"] else if x = c!"J" then [c!"kg", c!"m"] else if x = c!"W" then [c!"kg", c!"m"]
    else if x = c!"psi" then [c!"lbf"] else if x = c!"cP" then [c!"g"] else if x = c!"C" then [c!"A", c!"s"]
    else if x = c!"V" then [c!"kg", c!"m"] else [x])

/-- How often it is written below the line (W is written J/s, so `s` is written twice). -/
def below (s x : Sym) : ℕ :=
  List.count s (if x = c!"Pa" then [c!"m", c!"s"] else if x = c!"J" then [c!"s"] else if x = c!"W" then [c!"s", c!"s"]
    else if x = c!"psi" then [c!"in"] else if x = c!"cP" then [c!"m", c!"s"] else if x = c!"V" then [c!"s", c!"A"] else [])

/-- Sum over the entries with nonzero exponent. -/
def tally (f : Sym → ℕ) (l : UList) : ℕ := (l.map fun u => if u.exp = 0 then 0 else f (stemOf u.unit)).sum

/-- How often `s` is written above the line when `top/bot` is written out in base units, nothing being collected. -/
def timesAbove (s : Sym) (top bot : UList) : ℕ := tally (above s) top + tally (below s) bot

end Verif
