import Verif.Spec.Units

/-! # New unit names and the sizes they are registered with -/

namespace Verif

/-- The names the definitions of units and prefixes speak about. -/
def definedVocabulary : List Sym :=
  [c!"kg", c!"lbf", c!"in"] ++ derivedNames ++ prefixStems ++
    siPrefixes.flatMap fun p => prefixStems.map fun s => p.1 :: s

/-- A name that nothing is said about. -/
def NewName (n : Sym) : Prop := n ∉ definedVocabulary

instance (n : Sym) : Decidable (NewName n) := by unfold NewName; infer_instance

/-- One `n` is `k` of the unit `existing`. -/
noncomputable def withUnit (ρ : Sym → ℝ) (n existing : Sym) (k : ℝ) : Sym → ℝ :=
  fun s => if s = n then k * ρ existing else ρ s

end Verif
