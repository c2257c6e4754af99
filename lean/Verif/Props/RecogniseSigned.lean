import Verif.Props.Recognise
import Verif.Props.CanonicalSigned
import Verif.Props.Once

/-!
# C77, C63: recognition of derived units and equality of products with negative exponents

`C77_product_recognised_partial` and `C77_quotient_recognised_partial` without the condition that all exponents are
nonnegative: `kg·m^-1·s^-2` is recognised as `Pa` like `kg/(m·s²)`.
-/

namespace Verif

/-- A reduced quantity of the formal weight of a power of a derived unit is written in that unit. -/
theorem reduce_signed_recognised {k : Sym} (hk : k ∈ recognised) {n : ℚ} (h1 : 1 ≤ n) (h2 : n ≤ 100) {top bot : UList}
    (ht : WellPrefixedList top) (hb : WellPrefixedList bot) (n1 : SignedList top) (n2 : AllNonneg bot)
    (hw : ∀ w, FormalWeight w → net w top bot = n * w k) :
    reduceUnits (K := ℝ) true true top bot = .ok ([⟨k, n⟩], [], prefixProd top / prefixProd bot) := by
  obtain ⟨u1, u2, e⟩ := baseForm_reduce hk n h1 h2
  have hn0 : 0 ≤ n := by linarith
  have hnn : AllNonneg (baseForm k n).1 ∧ AllNonneg (baseForm k n).2 := by
    clear e u1 u2 hw
    simp only [recognised, List.mem_cons, List.not_mem_nil, or_false] at hk
    rcases hk with rfl | rfl | rfl | rfl | rfl | rfl <;> simp [baseForm, AllNonneg, hn0]
  have hnet : ∀ w, FormalWeight w → net w (baseForm k n).1 (baseForm k n).2 = n * w k := by
    intro w hw
    have a1 := hw.pascal
    have a2 := hw.joule
    have a3 := hw.watt
    have a4 := hw.psi
    have a5 := hw.centipoise
    have a6 := hw.coulomb
    clear e u1 u2 hnn
    simp only [recognised, List.mem_cons, List.not_mem_nil, or_false] at hk
    rcases hk with rfl | rfl | rfl | rfl | rfl | rfl <;> simp [baseForm, net, wsum_cons] at * <;>
      simp only [a1, a2, a3, a4, a5, a6] <;> ring
  obtain ⟨t, b, t', b', e1, e2, s1, s2⟩ := reduce_signed_canonical ht hb u1.well u2.well n1 n2 hnn.1.signed hnn.2
    fun w h => (hw w h).trans (hnet w h).symm
  rw [e] at e2
  simp only [Except.ok.injEq, Prod.mk.injEq] at e2
  obtain ⟨rfl, rfl, -⟩ := e2
  rw [e1, same_single s1.symm, (proj_sum_length b).2 fun s => s2 s]

/-- Recognition in products with negative exponents above the line: whatever units with prefixes the factors are written in, if the units are formally those of
`k^n` the product is written in `k`, and has the right magnitude. -/
theorem C77_product_recognised_signed_partial (a b : MultiV ℝ) (ha : a.Genuine) (hb : b.Genuine)
    (na : a.SignedAbove) (nb : b.SignedAbove) (k : Sym) (hk : k ∈ recognised) (n : ℚ) (h1 : 1 ≤ n) (h2 : n ≤ 100)
    (hu : UnitsCancel (a.top ++ b.top) (a.bot ++ b.bot ++ [⟨k, n⟩])) :
    ∃ v, Val.mul (.multi a) (.multi b) = .ok (.multi ⟨.multi, v, [⟨k, n⟩], []⟩) ∧
      ∀ ρ, Coherent ρ → v * ρ k ^ (n : ℝ) = a.mag ρ * b.mag ρ := by
  have e := reduce_signed_recognised hk h1 h2 (wellPrefixed_append ha.1 hb.1) (wellPrefixed_append ha.2 hb.2)
    (na.1.append nb.1) (na.2.append nb.2) fun w hw => by
      have := hu w hw
      simp only [net, wsum_append, wsum_cons, wsum_nil, add_zero, smul_eq_mul] at this ⊢
      linarith
  refine ⟨a.value * b.value * (prefixProd (a.top ++ b.top) / prefixProd (a.bot ++ b.bot)),
    by simp only [Val.mul, multiMul, multiMulMulti, e], fun ρ hρ => ?_⟩
  obtain ⟨c, ec, -, hm, -⟩ := mul_multi_full a b ha hb
  simp only [Val.mul, multiMul, multiMulMulti, e, Except.ok.injEq, Val.multi.injEq] at ec
  rw [← hm ρ hρ, ← ec]
  simp [MultiV.mag, mag, lsize]

/-- Recognition in quotients, negative exponents above the line of the dividend or below that of the divisor; they come out as a simple quantity. -/
theorem C77_quotient_recognised_signed_partial (a b : MultiV ℝ) (ha : a.Genuine) (hb : b.Genuine)
    (na : a.SignedAbove) (nb : b.SignedBelow) (hv : b.value ≠ 0) (k : Sym) (hk : k ∈ recognised) (n : ℚ) (h1 : 1 ≤ n) (h2 : n ≤ 100)
    (hu : UnitsCancel (a.top ++ b.bot) (a.bot ++ b.top ++ [⟨k, n⟩])) :
    ∃ v, Val.div (.multi a) (.multi b) = .ok (.unit ⟨.unit, v, k, n⟩) ∧
      ∀ ρ, Coherent ρ → v * ρ k ^ (n : ℝ) = a.mag ρ / b.mag ρ := by
  have w1 := wellPrefixed_append ha.1 hb.2
  have w2 := wellPrefixed_append ha.2 hb.1
  have e := reduce_signed_recognised hk h1 h2 w1 w2 (na.1.append nb.2) (na.2.append nb.1) fun w hw => by
      have := hu w hw
      simp only [net, wsum_append, wsum_cons, wsum_nil, add_zero, smul_eq_mul] at this ⊢
      linarith
  have hs : ¬ (a.top = b.top ∧ a.bot = b.bot) := by
    intro hs
    have hcan := reduce_complete true w1 w2 (fun w hw => by simp only [net, wsum_append, hs.1, hs.2]; ring) (by simp)
    rw [e] at hcan
    simp at hcan
  refine ⟨a.value / b.value * (prefixProd (a.top ++ b.bot) / prefixProd (a.bot ++ b.top)),
    by simp only [Val.div, multiDiv, multiDivMulti, hs, if_false, e, pyDiv_ne hv, packDiv], fun ρ hρ => ?_⟩
  obtain ⟨t0, b0, e0, -, -, -, h0⟩ := reduce_full true true w1 w2
  rw [e] at e0; cases e0
  have g0 := h0 ρ hρ (a.value / b.value)
  simp only [mag, lsize_append] at g0
  simp only [MultiV.mag, mag]
  have p1 := (lsize_pos hρ.pos a.bot).ne'
  have p2 := (lsize_pos hρ.pos b.top).ne'
  have p3 := (lsize_pos hρ.pos b.bot).ne'
  have p4 := (lsize_pos hρ.pos a.top).ne'
  have : Verif.lsize ρ [⟨k, n⟩] / Verif.lsize ρ [] = ρ k ^ (n : ℝ) := by simp [Verif.lsize]
  rw [this] at g0
  rw [g0]
  field_simp

/-- 3 kg·m^-1 times 2 ms^-2 is recognised as a pressure. -/
example : ∃ v : ℝ, Val.mul (.multi ⟨.multi, 3, [⟨c!"kg", 1⟩, ⟨c!"m", -1⟩], []⟩) (.multi ⟨.multi, 2, [⟨c!"ms", -2⟩], []⟩) =
    .ok (.multi ⟨.multi, v, [⟨c!"Pa", 1⟩], []⟩) := by
  obtain ⟨v, h, -⟩ := C77_product_recognised_signed_partial ⟨.multi, 3, [⟨c!"kg", 1⟩, ⟨c!"m", -1⟩], []⟩
    ⟨.multi, 2, [⟨c!"ms", -2⟩], []⟩ (by decide) (by decide)
    ⟨by unfold SignedList; decide +kernel, by simp [AllNonneg]⟩ ⟨by unfold SignedList; decide +kernel, by simp [AllNonneg]⟩
    c!"Pa" (by decide) 1 le_rfl (by norm_num) fun w hw => by
      have a1 := hw.si ('m', 1 / 1000) (by decide +kernel) c!"s" (by decide) (by decide)
      have a3 := hw.pascal
      simp only [List.cons_append, List.nil_append, List.append_nil, net, wsum_cons, wsum_nil, smul_eq_mul, a1, a3]
      ring
  exact ⟨v, h⟩

/-- Exactly when two products are equal for `==`, negative exponents above the line included. -/
theorem C63_products_equal_signed_exact (a b c d : MultiV ℝ) (ha : a.Genuine) (hb : b.Genuine) (hc : c.Genuine)
    (hd : d.Genuine) (na : a.SignedAbove) (nb : b.SignedAbove) (nc : c.SignedAbove) (nd : d.SignedAbove)
    (hm : Moderate (a.top ++ b.top) (a.bot ++ b.bot)) (hm' : Moderate (c.top ++ d.top) (c.bot ++ d.bot))
    (ρ : Sym → ℝ) (hρ : Coherent ρ) :
    (∃ r r', Val.mul (.multi a) (.multi b) = .ok r ∧ Val.mul (.multi c) (.multi d) = .ok r' ∧ Val.eq r r' = true) ↔
      UnitsCancel (a.top ++ b.top ++ (c.bot ++ d.bot)) (a.bot ++ b.bot ++ (c.top ++ d.top)) ∧
        a.mag ρ * b.mag ρ = c.mag ρ * d.mag ρ :=
  ⟨C63_products_sound a b c d ha hb hc hd hm hm' ρ hρ,
    fun ⟨hu, h⟩ => C63_products_equal_signed a b c d ha hb hc hd na nb nc nd hu ρ hρ h⟩

/-- The condition on the size of the exponents holds for W·m^-2/K times s^-1. -/
example : Moderate ([⟨c!"W", 1⟩, ⟨c!"m", -2⟩] ++ [⟨c!"s", -1⟩]) ([⟨c!"K", 1⟩] ++ []) :=
  Moderate.of_small (by decide +kernel)

end Verif
