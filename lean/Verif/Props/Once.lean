import Verif.Lemmas.Once
import Verif.Lemmas.Cast
import Verif.Props.Canonical
import Verif.Props.Guards

/-!
# C104: every unit is listed once

`5 kg*m/s^3`, not `5 kg*m/s*s*s`: the lists of a computed quantity name every unit at most once over numerator and
denominator together.  The program collects equal units and cancels (units.py:422-485), then replaces base units by
derived ones (units.py:611-751), and nothing collects the derived units afterwards.  It counts at most 100 matches at a
time (units.py:694), so above that a unit is listed twice; and two of the operators leave one of the lists uncollected.
-/

namespace Verif

/-- Every unit is listed at most once over numerator and denominator. -/
def ListedOnce {K : Type} : Val K → Prop
  | .multi m => ((m.top ++ m.bot).map (·.unit)).Nodup
  | _ => True

theorem listedOnce_packMul {K : Type} (v : K) {t b : UList} (h : ((t ++ b).map (·.unit)).Nodup) :
    ListedOnce (packMul v t b) := by
  unfold packMul; split <;> trivial

theorem listedOnce_packDiv {K : Type} (v : K) {t b : UList} (h : ((t ++ b).map (·.unit)).Nodup) :
    ListedOnce (packDiv v t b) := by
  unfold packDiv; split <;> trivial

/-- A product of compound quantities lists every unit once.  Missing for the full claim: exponents above 100. -/
theorem C104_product_partial (a b : MultiV ℝ) (ha : a.Genuine) (hb : b.Genuine) (hm : Moderate (a.top ++ b.top) (a.bot ++ b.bot)) :
    ∃ r, Val.mul (.multi a) (.multi b) = .ok r ∧ ListedOnce r := by
  have ht := wellPrefixed_append ha.1 hb.1
  have hb := wellPrefixed_append ha.2 hb.2
  obtain ⟨t, b1, e, -⟩ := reduce_full true true ht hb
  simp only [Val.mul, multiMul, multiMulMulti, e]
  exact ⟨_, rfl, reduce_once true true ht hb hm (by simp) (by simp) e⟩

/-- A compound quantity times a simple one, in either order.  Missing for the full claim: exponents above 100. -/
theorem C104_product_simple_partial (a : MultiV ℝ) (u : UnitV ℝ) (ha : a.Genuine) (hu : WellPrefixed u.unit)
    (hm : Moderate (a.top ++ [⟨u.unit, u.exp⟩]) a.bot) :
    ∃ r, Val.mul (.multi a) (.unit u) = .ok r ∧ Val.mul (.unit u) (.multi a) = .ok r ∧ ListedOnce r := by
  have ht := wellPrefixed_append ha.1 (wellPrefixed_single hu (e := u.exp))
  obtain ⟨t, b1, e, -⟩ := reduce_full true true ht ha.2
  refine ⟨packMul (u.value * a.value) t b1, ?_, ?_, ?_⟩
  · simp only [Val.mul, multiMul, multiMulUnit, e]
  · simp only [Val.mul, unitMul, multiMulUnit, e]
  · exact listedOnce_packMul _ (reduce_once true true ht ha.2 hm (by simp) (by simp) e)

/-- A quotient of compound quantities.  Missing for the full claim: exponents above 100. -/
theorem C104_quotient_partial (a b : MultiV ℝ) (ha : a.Genuine) (hb : b.Genuine) (hv : b.value ≠ 0)
    (hm : Moderate (a.top ++ b.bot) (a.bot ++ b.top)) :
    ∃ r, Val.div (.multi a) (.multi b) = .ok r ∧ ListedOnce r := by
  have ht := wellPrefixed_append ha.1 hb.2
  have hb := wellPrefixed_append ha.2 hb.1
  obtain ⟨t, b1, e, -⟩ := reduce_full true true ht hb
  simp only [Val.div, multiDiv, multiDivMulti, e, pyDiv_ne hv]
  split
  · exact ⟨_, rfl, trivial⟩
  · exact ⟨_, rfl, listedOnce_packDiv _ (reduce_once true true ht hb hm (by simp) (by simp) e)⟩

/-- A compound quantity divided by a simple one, if writing it out in base units writes no symbol twice above the line.
Missing for the full claim: exponents above 100, and numerators that do. -/
theorem C104_simple_divisor_partial (a : MultiV ℝ) (u : UnitV ℝ) (ha : a.Genuine) (hu : WellPrefixed u.unit)
    (hv : u.value ≠ 0) (hm : Moderate a.top (a.bot ++ [⟨u.unit, u.exp⟩]))
    (h1 : ∀ s, timesAbove s a.top (a.bot ++ [⟨u.unit, u.exp⟩]) ≤ 1) :
    ∃ r, Val.div (.multi a) (.unit u) = .ok r ∧ ListedOnce r := by
  have hb := wellPrefixed_append ha.2 (wellPrefixed_single hu (e := u.exp))
  obtain ⟨t, b1, e, -⟩ := reduce_full false true ha.1 hb
  simp only [Val.div, multiDiv, multiDivUnit, e, pyDiv_ne hv]
  exact ⟨_, rfl, listedOnce_packDiv _ (reduce_once false true ha.1 hb hm (fun _ => h1) (by simp) e)⟩

/-- A simple quantity divided by a compound one, if writing it out writes no symbol twice below the line.  Missing for
the full claim: exponents above 100, and denominators that do. -/
theorem C104_simple_dividend_partial (u : UnitV ℝ) (a : MultiV ℝ) (ha : a.Genuine) (hu : WellPrefixed u.unit)
    (hv : a.value ≠ 0) (hm : Moderate (a.bot ++ [⟨u.unit, u.exp⟩]) a.top)
    (h1 : ∀ s, timesAbove s a.top (a.bot ++ [⟨u.unit, u.exp⟩]) ≤ 1) :
    ∃ r, Val.div (.unit u) (.multi a) = .ok r ∧ ListedOnce r := by
  have hb := wellPrefixed_append ha.2 (wellPrefixed_single hu (e := u.exp))
  obtain ⟨t, b1, e, -⟩ := reduce_full true false hb ha.1
  simp only [Val.div, unitDiv, unitDivMulti, e, pyDiv_ne hv]
  exact ⟨_, rfl, listedOnce_packDiv _ (reduce_once true false hb ha.1 hm (by simp) (fun _ => h1) e)⟩

/-- A power, with any exponent, of a quantity without prefixes.  Missing for the full claim: exponents above 100, and
prefixes (which powers keep). -/
theorem C104_power_partial (a : MultiV ℝ) (p : ℚ) (ha : a.Plain) (hm : Moderate (a.top.map (·.pow p)) (a.bot.map (·.pow p)))
    (r : Val ℝ) (h : Val.pow (.multi a) p = .ok r) : ListedOnce r := by
  simp only [Val.pow, multiPow] at h
  split at h
  · cases h
  · rename_i t b e
    split at h
    · cases h
    · cases h
      exact reducePow_once (fun u hu => by obtain ⟨v, hv, rfl⟩ := List.mem_map.1 hu; exact ha.1 v hv)
        (fun u hu => by obtain ⟨v, hv, rfl⟩ := List.mem_map.1 hu; exact ha.2 v hv) hm e

/-- With exponents adding up to 33 or less the condition is met: here kg·m/s² times m/s. -/
example : Moderate ([⟨c!"kg", 1⟩, ⟨c!"m", 1⟩] ++ [⟨c!"m", 1⟩]) ([⟨c!"s", 2⟩] ++ [⟨c!"s", 1⟩]) :=
  Moderate.of_small (by decide +kernel)

/-- Above 100 the claim is false: (10⁰ J^100)² is J^100·J^100. -/
theorem C104_large_false : ¬ ∀ a b : MultiV ℝ, a.Genuine → b.Genuine →
    ∃ r, Val.mul (.multi a) (.multi b) = .ok r ∧ ListedOnce r := by
  intro h
  obtain ⟨r, e, hr⟩ := h ⟨.multi, 1, [⟨c!"J", 100⟩], []⟩ ⟨.multi, 1, [⟨c!"J", 100⟩], []⟩ (by decide) (by decide)
  have e2 : reduceUnits (K := ℚ) true true ([⟨c!"J", 100⟩] ++ [⟨c!"J", 100⟩]) ([] ++ []) =
    .ok ([⟨c!"J", 100⟩, ⟨c!"J", 100⟩], [], 1) := by decide +kernel
  simp only [Val.mul, multiMul, multiMulMulti, reduceUnits_cast e2] at e
  cases e
  revert hr
  simp [ListedOnce]

/-- The numerator of a quotient by a simple quantity is not collected: m·m divided by s is m·m/s. -/
theorem C104_simple_divisor_false : ¬ ∀ (a : MultiV ℝ) (u : UnitV ℝ), a.Genuine → WellPrefixed u.unit → u.value ≠ 0 →
    Moderate a.top (a.bot ++ [⟨u.unit, u.exp⟩]) → ∃ r, Val.div (.multi a) (.unit u) = .ok r ∧ ListedOnce r := by
  intro h
  obtain ⟨r, e, hr⟩ := h ⟨.multi, 1, [⟨c!"m", 1⟩, ⟨c!"m", 1⟩], []⟩ ⟨.time, 1, c!"s", 1⟩ (by decide) (by decide) one_ne_zero
    (Moderate.of_small (by decide +kernel))
  have e2 : reduceUnits (K := ℚ) false true [⟨c!"m", 1⟩, ⟨c!"m", 1⟩] ([] ++ [⟨c!"s", 1⟩]) =
    .ok ([⟨c!"m", 1⟩, ⟨c!"m", 1⟩], [⟨c!"s", 1⟩], 1) := by decide +kernel
  simp only [Val.div, multiDiv, multiDivUnit, reduceUnits_cast e2, pyDiv_ne (one_ne_zero (α := ℝ))] at e
  cases e
  revert hr
  simp [ListedOnce, packDiv]

/-- Neither is the denominator of a simple quantity divided by a compound one. -/
theorem C104_simple_dividend_false : ¬ ∀ (u : UnitV ℝ) (a : MultiV ℝ), a.Genuine → WellPrefixed u.unit → a.value ≠ 0 →
    Moderate (a.bot ++ [⟨u.unit, u.exp⟩]) a.top → ∃ r, Val.div (.unit u) (.multi a) = .ok r ∧ ListedOnce r := by
  intro h
  obtain ⟨r, e, hr⟩ := h ⟨.time, 1, c!"s", 1⟩ ⟨.multi, 1, [⟨c!"m", 1⟩, ⟨c!"m", 1⟩], []⟩ (by decide) (by decide) one_ne_zero
    (Moderate.of_small (by decide +kernel))
  have e2 : reduceUnits (K := ℚ) true false ([] ++ [⟨c!"s", 1⟩]) [⟨c!"m", 1⟩, ⟨c!"m", 1⟩] =
    .ok ([⟨c!"s", 1⟩], [⟨c!"m", 1⟩, ⟨c!"m", 1⟩], 1) := by decide +kernel
  simp only [Val.div, unitDiv, unitDivMulti, reduceUnits_cast e2, pyDiv_ne (one_ne_zero (α := ℝ))] at e
  cases e
  revert hr
  simp [ListedOnce, packDiv]

/-! ## What equality of computed quantities says -/

theorem listedOnce_perm {m o : MultiV ℝ} (hm : ListedOnce (.multi m)) (ho : ListedOnce (.multi o))
    (h : Val.eq (.multi m) (.multi o) = true) : m.value = o.value ∧ m.top.Perm o.top ∧ m.bot.Perm o.bot := by
  obtain ⟨-, h2, h3, h4⟩ := (multiEq_iff m o).1 h
  simp only [ListedOnce, List.map_append, List.nodup_append] at hm ho
  exact ⟨h2, (List.perm_ext_iff_of_nodup hm.1.of_map ho.1.of_map).2 h3,
    (List.perm_ext_iff_of_nodup hm.2.1.of_map ho.2.1.of_map).2 h4⟩

/-- Quantities that list every unit once are equal for `==` only if they have the same magnitude. -/
theorem C26_listed_once_magnitude (m o : MultiV ℝ) (hm : ListedOnce (.multi m)) (ho : ListedOnce (.multi o))
    (h : Val.eq (.multi m) (.multi o) = true) (ρ : Sym → ℝ) : m.mag ρ = o.mag ρ := by
  obtain ⟨h1, h2, h3⟩ := listedOnce_perm hm ho h
  simp only [MultiV.mag, mag, lsize, h1]
  rw [(h2.map _).prod_eq, (h3.map _).prod_eq]

/-- Products that are equal for `==` stand for the same quantity: their units cancel and their magnitudes agree.
(Exponents up to 100, of either sign.) -/
theorem C63_products_sound (a b c d : MultiV ℝ) (ha : a.Genuine) (hb : b.Genuine) (hc : c.Genuine) (hd : d.Genuine)
    (hm : Moderate (a.top ++ b.top) (a.bot ++ b.bot)) (hm' : Moderate (c.top ++ d.top) (c.bot ++ d.bot))
    (ρ : Sym → ℝ) (hρ : Coherent ρ) :
    (∃ r r', Val.mul (.multi a) (.multi b) = .ok r ∧ Val.mul (.multi c) (.multi d) = .ok r' ∧ Val.eq r r' = true) →
      UnitsCancel (a.top ++ b.top ++ (c.bot ++ d.bot)) (a.bot ++ b.bot ++ (c.top ++ d.top)) ∧
        a.mag ρ * b.mag ρ = c.mag ρ * d.mag ρ := by
  rintro ⟨r, r', e, e', h⟩
  have w1 := wellPrefixed_append ha.1 hb.1
  have w2 := wellPrefixed_append ha.2 hb.2
  have w3 := wellPrefixed_append hc.1 hd.1
  have w4 := wellPrefixed_append hc.2 hd.2
  obtain ⟨t, b1, f, -, -, -, g⟩ := reduce_full true true w1 w2
  obtain ⟨t', b1', f', -, -, -, g'⟩ := reduce_full true true w3 w4
  have o := reduce_once true true w1 w2 hm (by simp) (by simp) f
  have o' := reduce_once true true w3 w4 hm' (by simp) (by simp) f'
  simp only [Val.mul, multiMul, multiMulMulti, f] at e
  simp only [Val.mul, multiMul, multiMulMulti, f'] at e'
  cases e; cases e'
  have h1 := C26_listed_once_magnitude ⟨_, _, t, b1⟩ ⟨_, _, t', b1'⟩ o o' h ρ
  obtain ⟨-, p1, p2⟩ := listedOnce_perm (m := ⟨_, _, t, b1⟩) (o := ⟨_, _, t', b1'⟩) o o' h
  simp only [MultiV.mag] at h1
  rw [g ρ hρ, g' ρ hρ] at h1
  refine ⟨fun w hw => ?_, ?_⟩
  · have k := reduce_weight true true w1 w2 f w hw
    have k' := reduce_weight true true w3 w4 f' w hw
    have q : net w t b1 = net w t' b1' := by
      simp only [net, wsum]; rw [(p1.map _).sum_eq, (p2.map _).sum_eq]
    simp only [net, wsum_append] at k k' q ⊢
    linarith
  · simp only [MultiV.mag, mag, lsize_append] at h1 ⊢
    rw [mul_mul_mul_comm, div_mul_div_comm, h1, mul_mul_mul_comm, div_mul_div_comm]

/-- Exactly when two products are equal for `==`: their units cancel and their magnitudes agree.  (No negative exponents,
and exponents up to 100.) -/
theorem C63_products_equal_exact (a b c d : MultiV ℝ) (ha : a.Genuine) (hb : b.Genuine) (hc : c.Genuine) (hd : d.Genuine)
    (na : a.NoNegative) (nb : b.NoNegative) (nc : c.NoNegative) (nd : d.NoNegative)
    (hm : Moderate (a.top ++ b.top) (a.bot ++ b.bot)) (hm' : Moderate (c.top ++ d.top) (c.bot ++ d.bot))
    (ρ : Sym → ℝ) (hρ : Coherent ρ) :
    (∃ r r', Val.mul (.multi a) (.multi b) = .ok r ∧ Val.mul (.multi c) (.multi d) = .ok r' ∧ Val.eq r r' = true) ↔
      UnitsCancel (a.top ++ b.top ++ (c.bot ++ d.bot)) (a.bot ++ b.bot ++ (c.top ++ d.top)) ∧
        a.mag ρ * b.mag ρ = c.mag ρ * d.mag ρ :=
  ⟨C63_products_sound a b c d ha hb hc hd hm hm' ρ hρ,
    fun ⟨hu, h⟩ => C63_products_equal a b c d ha hb hc hd na nb nc nd hu ρ hρ h⟩

/-- The conditions hold for kPa·m³ times s. -/
example : (⟨.multi, 2, [⟨c!"kPa", 1⟩, ⟨c!"m", 3⟩], []⟩ : MultiV ℝ).Genuine ∧
    (⟨.multi, 2, [⟨c!"kPa", 1⟩, ⟨c!"m", 3⟩], []⟩ : MultiV ℝ).NoNegative ∧
    Moderate ([⟨c!"kPa", 1⟩, ⟨c!"m", 3⟩] ++ [⟨c!"s", 1⟩]) ([] ++ []) :=
  ⟨by decide, by constructor <;> intro u hu <;> simp at hu; rcases hu with rfl | rfl <;> norm_num,
    Moderate.of_small (by decide +kernel)⟩

end Verif
