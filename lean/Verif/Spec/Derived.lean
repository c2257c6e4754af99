import Verif.Spec.Units

/-!
# When a derived unit can be written

Written without reference to the algorithms of the model.
-/

namespace Verif

/-- The derived units of the library: symbol, numerator and denominator of the definition. -/
def definitions : List (Sym × UList × UList) :=
  [(c!"Pa", [⟨c!"kg", 1⟩], [⟨c!"m", 1⟩, ⟨c!"s", 2⟩]), (c!"J", [⟨c!"kg", 1⟩, ⟨c!"m", 2⟩], [⟨c!"s", 2⟩]),
    (c!"W", [⟨c!"J", 1⟩], [⟨c!"s", 1⟩]), (c!"psi", [⟨c!"lbf", 1⟩], [⟨c!"in", 2⟩]),
    (c!"cP", [⟨c!"g", 1⟩], [⟨c!"m", 1⟩, ⟨c!"s", 1⟩]), (c!"C", [⟨c!"A", 1⟩, ⟨c!"s", 1⟩], []),
    (c!"V", [⟨c!"kg", 1⟩, ⟨c!"m", 2⟩], [⟨c!"s", 3⟩, ⟨c!"A", 1⟩])]

/-- The list `base` fits `n` times into the list: its symbols occur, with at least `n` times the exponent. -/
structure Fits (base l : UList) (n : ℚ) : Prop where
  ex : ∀ u ∈ base, ∃ v ∈ l, v.unit = u.unit
  le : ∀ u ∈ base, ∀ v ∈ l, v.unit = u.unit → u.exp * n ≤ v.exp

/-- The definition of a derived unit fits `n` times into `top/bot`. -/
def Occurs (d : Sym × UList × UList) (top bot : UList) (n : ℚ) : Prop := Fits d.2.1 top n ∧ Fits d.2.2 bot n

/-- The number of times the definition fits, at most 100. -/
def Multiplicity (d : Sym × UList × UList) (top bot : UList) (n : ℚ) : Prop :=
  IsGreatest {m | m ≤ 100 ∧ Occurs d top bot m} n

/-- No derived unit can be written. -/
def Irreducible (top bot : UList) : Prop := ∀ d ∈ definitions, ¬ Occurs d top bot 1

instance (base l : UList) (n : ℚ) : Decidable (Fits base l n) :=
  decidable_of_iff ((∀ u ∈ base, ∃ v ∈ l, v.unit = u.unit) ∧ ∀ u ∈ base, ∀ v ∈ l, v.unit = u.unit → u.exp * n ≤ v.exp)
    ⟨fun h => ⟨h.1, h.2⟩, fun h => ⟨h.1, h.2⟩⟩

instance (d : Sym × UList × UList) (top bot : UList) (n : ℚ) : Decidable (Occurs d top bot n) := by
  unfold Occurs; infer_instance

instance (top bot : UList) : Decidable (Irreducible top bot) := by unfold Irreducible; infer_instance

end Verif
