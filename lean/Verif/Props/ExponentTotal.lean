import Verif.Props.Parsing
import Verif.Units.Convert
import Verif.Units.Real

/-!
# C112: get_exponent_total
-/

namespace Verif

set_option linter.unusedSectionVars false

section
variable {K : Type} [Zero K] [One K] [Add K] [Sub K] [Mul K] [Div K] [Neg K] [NatCast K] [RatCast K] [LinearOrder K] [PyPow K]

theorem foldl_exp (l : UList) (n : ℚ) : l.foldl (fun n u => n + u.exp) n = n + (l.map (·.exp)).sum := by
  induction l generalizing n with
  | nil => simp
  | cons u l ih => rw [List.foldl_cons, ih, List.map_cons, List.sum_cons, add_assoc]

/-- The number an exponent stands for in a unit string: 1 when none is written. -/
def Factor.power (f : Factor) : ℚ := (f.exp.map DecLit.value).getD 1

/-- The total of a quantity made from a unit string is the sum of the exponents written in it, numerator and denominator
alike. -/
theorem C112_written (top bot : List Factor) (ht : top ≠ []) (h : ∀ f ∈ top ++ bot, f.WellFormed) (cls : MCls) (v : K) :
    ∃ m, mkMulti cls v (unitString top bot) = .ok m ∧ exponentTotal m = (top.map Factor.power).sum + (bot.map Factor.power).sum := by
  refine ⟨_, C14_parse_write top bot ht h cls v, ?_⟩
  have e : ∀ l : List Factor, (l.map Factor.denotes).map (·.exp) = l.map Factor.power := by
    intro l
    rw [List.map_map]
    refine List.map_congr_left fun f _ => ?_
    simp only [Function.comp, Factor.denotes, Factor.power]
    cases f.exp <;> rfl
  simp only [exponentTotal, foldl_exp, zero_add, e]

/-- It does not depend on the order of the units, the value or the class. -/
theorem C112_order (m m' : MultiV K) (ht : m.top.Perm m'.top) (hb : m.bot.Perm m'.bot) : exponentTotal m = exponentTotal m' := by
  simp only [exponentTotal, foldl_exp, zero_add]
  rw [(ht.map _).sum_eq, (hb.map _).sum_eq]

/-- Dividing a number by a quantity leaves the total. -/
theorem C112_reciprocal (m r : MultiV K) (x : K) (h : Val.div (.num x) (.multi m) = .ok (.multi r)) :
    exponentTotal r = exponentTotal m := by
  simp only [Val.div, multiRdiv] at h
  split at h
  · cases h
  · cases h
    simp only [exponentTotal, foldl_exp, zero_add]
    exact add_comm _ _

/-- Multiplying or dividing by a number, and negating, leave the total. -/
theorem C112_scale (m r : MultiV K) (x : K)
    (h : Val.mul (.multi m) (.num x) = .ok (.multi r) ∨ Val.mul (.num x) (.multi m) = .ok (.multi r) ∨
      Val.div (.multi m) (.num x) = .ok (.multi r) ∨ Val.neg (.multi m) = .ok (.multi r)) :
    exponentTotal r = exponentTotal m := by
  rcases h with h | h | h | h
  · simp only [Val.mul, multiMul] at h
    cases h; rfl
  · simp only [Val.mul, multiRmul] at h
    cases h; rfl
  · simp only [Val.div, multiDiv] at h
    split at h
    · cases h
    · cases h; rfl
  · simp only [Val.neg] at h
    cases h; rfl

/-- It is the sum of the sizes of the exponents, as the example in the documentation suggests, when none is negative.
Missing: quantities written with negative exponents (`C112_written_differently_false`). -/
theorem C112_sizes_partial (m : MultiV K) (h : ∀ u ∈ m.top ++ m.bot, 0 ≤ u.exp) :
    exponentTotal m = ((m.top ++ m.bot).map fun u => |u.exp|).sum := by
  simp only [exponentTotal, foldl_exp, zero_add, ← List.sum_append, ← List.map_append]
  congr 1
  exact List.map_congr_left fun u hu => (abs_of_nonneg (h u hu)).symm

end

/-- The example in the documentation, units.py:803-805. -/
example : (mkMulti .multi (5 : ℚ) c!"m^2/s^2").map exponentTotal = .ok 4 := by decide +kernel

/-- One unit written in two ways has two totals: `m/s` has 2 and `m*s^-1` has 0, although the two quantities are the same
(their quotient is the number 1). -/
theorem C112_written_differently_false : ∃ a b : MultiV ℚ,
    mkMulti .multi 1 c!"m/s" = .ok a ∧ mkMulti .multi 1 c!"m*s^-1" = .ok b ∧
    Val.div (.multi a) (.multi b) = .ok (.num 1) ∧ exponentTotal a = 2 ∧ exponentTotal b = 0 :=
  ⟨⟨.multi, 1, [⟨c!"m", 1⟩], [⟨c!"s", 1⟩]⟩, ⟨.multi, 1, [⟨c!"m", 1⟩, ⟨c!"s", -1⟩], []⟩, by decide +kernel, by decide +kernel,
    by decide +kernel, by decide +kernel, by decide +kernel⟩

end Verif
