import Verif.Spec.Units
import Verif.Units.Ops

/-! # Physical magnitude of quantities, and the SI sizes as a concrete coherent assignment -/

namespace Verif

/-- Magnitude of a simple quantity. -/
noncomputable def UnitV.mag (ρ : Sym → ℝ) (u : UnitV ℝ) : ℝ := u.value * ρ u.unit ^ (u.exp : ℝ)

/-- Magnitude of a compound quantity. -/
noncomputable def MultiV.mag (ρ : Sym → ℝ) (m : MultiV ℝ) : ℝ := Verif.mag ρ m.value m.top m.bot

/-- The magnitude a value stands for; objects that are not quantities have none. -/
inductive HasMag (ρ : Sym → ℝ) : Val ℝ → ℝ → Prop
  | num (x : ℝ) : HasMag ρ (.num x) x
  | unit (u : UnitV ℝ) : HasMag ρ (.unit u) (u.mag ρ)
  | multi (m : MultiV ℝ) : HasMag ρ (.multi m) (m.mag ρ)

/-- An object of a unit class as the constructors can produce it. -/
def UnitV.Constructed {K : Type} (u : UnitV K) : Prop := ∃ v s e, mkUnit u.cls v s e = .ok u

/-- Every prefix letter split off the symbols of the quantity is a genuine SI prefix. -/
def MultiV.Genuine {K : Type} (m : MultiV K) : Prop := WellPrefixedList m.top ∧ WellPrefixedList m.bot

/-- No symbol of the quantity carries a prefix (`kg` does not count as prefixed). -/
def MultiV.Plain {K : Type} (m : MultiV K) : Prop := UnprefixedList m.top ∧ UnprefixedList m.bot

instance {K : Type} (m : MultiV K) : Decidable m.Genuine := by unfold MultiV.Genuine; infer_instance
instance {K : Type} (m : MultiV K) : Decidable m.Plain := by unfold MultiV.Plain; infer_instance

/-- No cancelled entries left over: numerator exponents positive, denominator exponents nonzero. -/
def ReducedVal : Val ℝ → Prop
  | .multi m => (∀ u ∈ m.top, 0 < u.exp) ∧ (∀ u ∈ m.bot, u.exp ≠ 0)
  | .unit u => u.exp ≠ 0
  | _ => True

/-- Sizes of unprefixed units in SI base units. -/
def siBase : List (Sym × ℚ) :=
  [(c!"g", 1 / 1000), (c!"Pa", 1), (c!"lbf", 444822 / 100000), (c!"in", 254 / 10000),
   (c!"ft", 3048 / 10000), (c!"yd", 9144 / 10000), (c!"mile", 160934 / 100),
   (c!"min", 60), (c!"hr", 3600), (c!"day", 86400), (c!"lb", 453592 / 1000000),
   (c!"psi", 444822 / 100000 / (254 / 10000) ^ 2), (c!"cP", 1 / 1000), (c!"BTU", 1055056 / 1000),
   (c!"bar", 100000), (c!"atm", 101325), (c!"L", 1 / 1000), (c!"acre", 4046873 / 1000),
   (c!"R", 5 / 9), (c!"F", 5 / 9), (c!"um", 1 / 1000000), (c!"ug", 1 / 1000000000), (c!"uJ", 1 / 1000000),
   (c!"uPa", 1 / 1000000), (c!"uN", 1 / 1000000)]

/-- SI size of a symbol (1 for symbols not listed: the base units and unknown ones). -/
def siSize (s : Sym) : ℚ :=
  match lookupSym s siBase with
  | some q => q
  | none => match s with
    | c :: st => match siPrefixes.find? (fun p => p.1 = c) with
      | some p => if s ≠ c!"kg" ∧ st ∈ prefixStems then p.2 * (lookupSym st siBase).getD 1 else 1
      | none => 1
    | [] => 1

theorem siSize_prefix : ∀ p ∈ siPrefixes, ∀ s ∈ prefixStems, siSize (p.1 :: s) = p.2 * siSize s := by
  decide +kernel

theorem siSize_pos (s : Sym) : 0 < siSize s := by
  have hb : ∀ x ∈ siBase, 0 < x.2 := by decide +kernel
  have hl : ∀ (l : List (Sym × ℚ)), (∀ x ∈ l, 0 < x.2) → ∀ s q, lookupSym s l = some q → 0 < q := by
    intro l hl s q h
    induction l with
    | nil => simp [lookupSym] at h
    | cons x l ih =>
      obtain ⟨k, v⟩ := x
      unfold lookupSym at h
      split at h
      · cases h; exact hl (k, q) (by simp)
      · exact ih (fun x hx => hl x (List.mem_cons_of_mem _ hx)) h
  have hp : ∀ p ∈ siPrefixes, 0 < p.2 := by decide +kernel
  have hd : ∀ st, 0 < (lookupSym st siBase).getD 1 := by
    intro st
    cases h2 : lookupSym st siBase with
    | none => simp
    | some q => simpa using hl _ hb _ _ h2
  unfold siSize
  split
  · rename_i q h; exact hl _ hb _ _ h
  · split
    · split
      · rename_i p h
        split
        · exact mul_pos (hp p (List.mem_of_find?_eq_some h)) (hd _)
        · norm_num
      · norm_num
    · norm_num

/-- The SI sizes are a coherent assignment: the hypothesis `Coherent` used throughout is satisfiable. -/
theorem siSize_coherent : Coherent (fun s => (siSize s : ℝ)) := by
  have h : ∀ a b : ℚ, a = b → (a : ℝ) = (b : ℝ) := fun a b e => by rw [e]
  constructor
  · intro s; exact_mod_cast siSize_pos s
  · have := h (siSize c!"Pa") (siSize c!"kg" / (siSize c!"m" * siSize c!"s" ^ 2)) (by decide +kernel)
    rw [this]; push_cast; rfl
  · have := h (siSize c!"J") (siSize c!"kg" * siSize c!"m" ^ 2 / siSize c!"s" ^ 2) (by decide +kernel)
    rw [this]; push_cast; rfl
  · have := h (siSize c!"W") (siSize c!"J" / siSize c!"s") (by decide +kernel)
    rw [this]; push_cast; rfl
  · have := h (siSize c!"psi") (siSize c!"lbf" / siSize c!"in" ^ 2) (by decide +kernel)
    rw [this]; push_cast; rfl
  · have := h (siSize c!"cP") (siSize c!"g" / (siSize c!"m" * siSize c!"s")) (by decide +kernel)
    rw [this]; push_cast; rfl
  · have := h (siSize c!"C") (siSize c!"A" * siSize c!"s") (by decide +kernel)
    rw [this]; push_cast; rfl
  · have := h (siSize c!"V") (siSize c!"kg" * siSize c!"m" ^ 2 / (siSize c!"s" ^ 3 * siSize c!"A"))
      (by decide +kernel)
    rw [this]; push_cast; rfl
  · intro p hp s hs
    have := siSize_prefix p hp s hs
    simp only [this]; push_cast; rfl

end Verif
