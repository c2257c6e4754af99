import Verif.Spec.Dimension

/-!
# Units one expects to be able to convert

A vocabulary of unit names, written without the conversion tables of the model, and the two invariants of a compound
unit that decide whether it can be converted: its dimension and the net exponent of its units of force.
-/

namespace Verif

/-- One of the names, possibly with an SI prefix letter in front. -/
def Spelled (names : List Sym) (s : Sym) : Prop := ∃ T ∈ names, s = T ∨ ∃ p ∈ siPrefixes, s = p.1 :: T

instance (names : List Sym) (s : Sym) : Decidable (Spelled names s) := by unfold Spelled; infer_instance

def temperatureNames : List Sym := [c!"K", c!"C", c!"R", c!"F"]

/-- Units of volume and area that have a name of their own. -/
def namedPowers : List Sym := [c!"L", c!"acre"]

/-- Names that stand on their own: base units, units with a conversion factor, litre and acre. -/
def plainNames : List Sym :=
  [c!"m", c!"um", c!"ft", c!"in", c!"yd", c!"kg", c!"g", c!"ug", c!"lb", c!"s", c!"min", c!"hr",
   c!"K", c!"C", c!"R", c!"F", c!"A", c!"mol", c!"J", c!"uJ", c!"BTU", c!"Pa", c!"uPa", c!"atm", c!"bar",
   c!"N", c!"uN", c!"lbf", c!"L", c!"acre"]

/-- Names the library only knows through their definition, and `psi`. -/
def definedNames : List Sym := [c!"W", c!"V", c!"cP", c!"psi"]

/-- An entry a conversion can be expected to handle: a known name, litres and acres to the first power, no temperature
to the power zero. -/
structure OrdinaryEntry (u : BaseUnit) : Prop where
  known : Spelled (plainNames ++ definedNames) u.unit
  power : Spelled namedPowers u.unit → u.exp = 1
  temp : Spelled temperatureNames u.unit → u.exp ≠ 0

/-- One half of a unit: none of the defined names occurs, or at most one unit with a definition does. -/
def FewDefined (l : UList) : Prop :=
  (∀ u ∈ l, ¬ Spelled definedNames u.unit) ∨ (l.countP fun u => decide (Spelled derivedNames u.unit)) ≤ 1

/-- Units built from the vocabulary. -/
structure Ordinary (top bot : UList) : Prop where
  entries : ∀ u ∈ top ++ bot, OrdinaryEntry u
  fewTop : FewDefined top
  fewBot : FewDefined bot

instance (l : UList) : Decidable (FewDefined l) := by unfold FewDefined; infer_instance

instance (u : BaseUnit) : Decidable (OrdinaryEntry u) :=
  decidable_of_iff (Spelled (plainNames ++ definedNames) u.unit ∧ (Spelled namedPowers u.unit → u.exp = 1) ∧
    (Spelled temperatureNames u.unit → u.exp ≠ 0)) ⟨fun h => ⟨h.1, h.2.1, h.2.2⟩, fun h => ⟨h.1, h.2, h.3⟩⟩

instance (top bot : UList) : Decidable (Ordinary top bot) :=
  decidable_of_iff ((∀ u ∈ top ++ bot, OrdinaryEntry u) ∧ FewDefined top ∧ FewDefined bot)
    ⟨fun h => ⟨h.1, h.2.1, h.2.2⟩, fun h => ⟨h.1, h.2, h.3⟩⟩

/-- Units of force, and `psi`, which is a force per area by definition. -/
def forceNames : List Sym := [c!"N", c!"uN", c!"lbf", c!"psi"]

/-- Exponent of force in a symbol. -/
def forceOf (s : Sym) : ℚ := if Spelled forceNames s then 1 else 0

/-- Net exponent of the units of force. -/
def forceOfUnit (top bot : UList) : ℚ :=
  (top.map fun u => u.exp * forceOf u.unit).sum - (bot.map fun u => u.exp * forceOf u.unit).sum

/-- What the conversion makes of a temperature of exponent `e`, relative to the true factor: `e` for kelvin, and
`e (5/9) / (5/9)^e` for degrees Rankine and Fahrenheit. -/
noncomputable def tempErr (u : BaseUnit) : ℝ :=
  if Spelled [c!"K"] u.unit then u.exp
  else if Spelled [c!"R", c!"F"] u.unit then u.exp * (5 / 9 : ℝ) ^ (1 - u.exp : ℝ)
  else 1

noncomputable def tempErrs (l : UList) : ℝ := (l.map tempErr).prod

end Verif
