import Verif.Lemmas.Combine
import Verif.Lemmas.Construct

/-! # C10-C13: the reduction steps behind products, quotients and powers -/

namespace Verif

/-! ## C10 -/

/-- Whatever multiplication, division or power of compound quantities returns is in reduced form, except that a scaled or
inverted quantity (the other operand a plain number) keeps its unit lists. -/
theorem C10_mul_reduced (a b : MultiV ℝ) (ha : a.Genuine) (hb : b.Genuine) :
    ∃ r, Val.mul (.multi a) (.multi b) = .ok r ∧ ReducedVal r := by
  obtain ⟨t, bo, e, hr, -⟩ := reduce_full true true
    (wellPrefixed_append ha.1 hb.1) (wellPrefixed_append ha.2 hb.2)
  exact ⟨.multi ⟨.multi, a.value * b.value * (prefixProd (a.top ++ b.top) / prefixProd (a.bot ++ b.bot)), t, bo⟩,
    by simp only [Val.mul, multiMul, multiMulMulti, e], hr⟩

theorem C10_mul_unit_reduced (a : MultiV ℝ) (u : UnitV ℝ) (ha : a.Genuine) (hu : WellPrefixed u.unit) :
    ∃ r, Val.mul (.multi a) (.unit u) = .ok r ∧ Val.mul (.unit u) (.multi a) = .ok r ∧ ReducedVal r := by
  obtain ⟨t, bo, e, hr, -⟩ := reduce_full true true
    (wellPrefixed_append ha.1 (wellPrefixed_single (e := u.exp) hu)) ha.2
  exact ⟨packMul (u.value * a.value) t bo, by simp only [Val.mul, multiMul, multiMulUnit, e],
    by simp only [Val.mul, unitMul, multiMulUnit, e], packMul_reduced hr⟩

theorem C10_div_reduced (a b : MultiV ℝ) (ha : a.Genuine) (hb : b.Genuine) (hv : b.value ≠ 0) :
    ∃ r, Val.div (.multi a) (.multi b) = .ok r ∧ ReducedVal r := by
  obtain ⟨t, bo, e, hr, -⟩ := reduce_full true true
    (wellPrefixed_append ha.1 hb.2) (wellPrefixed_append ha.2 hb.1)
  simp only [Val.div, multiDiv, multiDivMulti, pyDiv_ne hv, e]
  split
  · exact ⟨_, rfl, trivial⟩
  · exact ⟨_, rfl, packDiv_reduced hr⟩

theorem C10_div_unit_reduced (a : MultiV ℝ) (u : UnitV ℝ) (ha : a.Genuine) (hu : WellPrefixed u.unit)
    (hv : u.value ≠ 0) : ∃ r, Val.div (.multi a) (.unit u) = .ok r ∧ ReducedVal r := by
  obtain ⟨t, bo, e, hr, -⟩ := reduce_full false true ha.1
    (wellPrefixed_append ha.2 (wellPrefixed_single (e := u.exp) hu))
  have h : Val.div (.multi a) (.unit u) = .ok (packDiv (a.value / u.value *
      (prefixProd a.top / prefixProd (a.bot ++ [⟨u.unit, u.exp⟩]))) t bo) := by
    simp only [Val.div, multiDiv, multiDivUnit, pyDiv_ne hv, e]
  exact ⟨_, h, packDiv_reduced hr⟩

theorem C10_unit_div_reduced (a : MultiV ℝ) (u : UnitV ℝ) (ha : a.Genuine) (hu : WellPrefixed u.unit)
    (hv : a.value ≠ 0) : ∃ r, Val.div (.unit u) (.multi a) = .ok r ∧ ReducedVal r := by
  obtain ⟨t, bo, e, hr, -⟩ := reduce_full true false
    (wellPrefixed_append ha.2 (wellPrefixed_single (e := u.exp) hu)) ha.1
  have h : Val.div (.unit u) (.multi a) = .ok (packDiv (u.value / a.value) t bo) := by
    simp only [Val.div, unitDiv, unitDivMulti, pyDiv_ne hv, e]
  exact ⟨_, h, packDiv_reduced hr⟩

theorem C10_pow_reduced (m : MultiV ℝ) (e : ℚ) {r : Val ℝ} (h : Val.pow (.multi m) e = .ok r) :
    ReducedVal r := by
  obtain ⟨t, b, er, hr, -⟩ := reducePow_spec (m.top.map (·.pow e)) (m.bot.map (·.pow e))
  simp only [Val.pow, multiPow, er] at h
  split at h
  · cases h
  · cases h; exact hr

/-- The operands of a product or quotient with a compound quantity, neither of them a plain number. -/
def CompoundPair : Val ℝ → Val ℝ → Prop
  | .multi _, .multi _ | .multi _, .unit _ | .unit _, .multi _ => True
  | _, _ => False

theorem reduceUnits_reduced {c1 c2 : Bool} {top bot t b : UList} {f : ℝ}
    (h : reduceUnits (K := ℝ) c1 c2 top bot = .ok (t, b, f)) : Reduced t b := by
  unfold reduceUnits at h
  split at h
  · cases h
  split at h
  · cases h
  simp only at h
  split at h
  · cases h
  next e2 =>
    cases h
    exact simplifyUnits_reduced e2 (cancelUnits_reduced _ _)

/-- No condition on the unit lists: whatever a product or quotient of these returns is in reduced form, with misread
prefixes and unknown symbols too. -/
theorem C10_any_reduced (x y r : Val ℝ) (hp : CompoundPair x y) (h : Val.mul x y = .ok r ∨ Val.div x y = .ok r) :
    ReducedVal r := by
  cases x <;> cases y <;> simp only [CompoundPair] at hp <;> rcases h with h | h <;>
    simp only [Val.mul, Val.div, unitMul, unitDiv, multiMul, multiDiv, multiMulMulti, multiMulUnit, multiDivMulti,
      multiDivUnit, unitDivMulti] at h <;> (repeat' split at h) <;>
    first
    | (cases h; done)
    | (cases h; trivial)
    | (cases h; exact packMul_reduced (reduceUnits_reduced ‹_›))
    | (cases h; exact packDiv_reduced (reduceUnits_reduced ‹_›))
    | (cases h; exact reduceUnits_reduced ‹_›)

/-- Such operands: `day` is misread as a tenth of an `ay`, `xyz` is no unit at all. -/
example : CompoundPair (.multi ⟨.multi, 2, [⟨c!"day", 1⟩], [⟨c!"xyz", -1⟩]⟩) (.unit ⟨.unit, 3, c!"day", -1⟩) ∧
    Val.mul (.multi (⟨.multi, 2, [⟨c!"day", 1⟩], [⟨c!"xyz", -1⟩]⟩ : MultiV ℚ)) (.unit ⟨.unit, 3, c!"day", -1⟩) =
      .ok (.multi ⟨.multi, 6, [], [⟨c!"xyz", -1⟩]⟩) := ⟨trivial, by decide +kernel⟩

/-- Operands whose product contains cancelling units; the product has none left. -/
example : (⟨.multi, 2, [⟨c!"kPa", 1⟩, ⟨c!"s", 1⟩], [⟨c!"s", 2⟩, ⟨c!"mol", 0⟩]⟩ : MultiV ℝ).Genuine := by decide

example : Val.mul (.multi (⟨.multi, 2, [⟨c!"K", 1⟩, ⟨c!"s", 1⟩], [⟨c!"s", 2⟩, ⟨c!"mol", 0⟩]⟩ : MultiV ℚ))
    (.multi ⟨.multi, 1, [⟨c!"s", 1⟩], []⟩) = .ok (.multi ⟨.multi, 2, [⟨c!"K", 1⟩], []⟩) := by decide +kernel

/-! ## C11 -/

/-- Deconstruction returns for every input, leaves no derived name, and keeps the size of the unit under
every coherent choice of sizes. -/
theorem C11_deconstruct (top bot : UList) :
    ∃ t b, deconstructUnits top bot = .ok (t, b) ∧ (∀ u ∈ t ++ b, u.unit ∉ derivedNames) ∧
      ∀ ρ, Coherent ρ → lsize ρ t / lsize ρ b = lsize ρ top / lsize ρ bot := by
  obtain ⟨t, b, e, -, h⟩ := deconstructUnits_spec derivedLaws_zero top bot
  refine ⟨t, b, e, fun u hu => not_derived (h u hu), fun ρ hρ => ?_⟩
  have := deconstructUnits_net hρ.laws e
  simp only [lsize_eq hρ.pos, ← Real.exp_sub]
  exact congrArg Real.exp this

/-- The same as formal exponents: any assignment of vectors to symbols that respects the definitions of the derived
units is respected (for instance dimension vectors). -/
theorem C11_deconstruct_formal {V : Type*} [AddCommGroup V] [Module ℚ V] (w : Sym → V)
    (hw : DerivedLaws w) (top bot : UList) :
    ∃ t b, deconstructUnits top bot = .ok (t, b) ∧ net w t b = net w top bot := by
  obtain ⟨t, b, e, h, -⟩ := deconstructUnits_spec hw top bot
  exact ⟨t, b, e, h⟩

/-- The bound on the number of rounds in the model is immaterial: with any larger bound the result is the same. -/
theorem C11_rounds_immaterial (top bot : UList) (k : ℕ) :
    deconLoop (deconFuel top + deconFuel bot + 1 + k) top bot = deconstructUnits top bot := by
  obtain ⟨t, b, e⟩ := deconstructUnits_ok top bot
  rw [e]; exact deconLoop_mono _ _ _ _ _ e

/-- A case with nested derived units on both sides. -/
example : deconstructUnits [⟨c!"W", 2⟩, ⟨c!"psi", 1⟩] [⟨c!"V", 1 / 2⟩] =
    .ok ([⟨c!"kg", 2⟩, ⟨c!"m", 4⟩, ⟨c!"s", 3 / 2⟩, ⟨c!"A", 1 / 2⟩, ⟨c!"lbf", 1⟩],
      [⟨c!"s", 2⟩, ⟨c!"s", 4⟩, ⟨c!"kg", 1 / 2⟩, ⟨c!"m", 1⟩, ⟨c!"in", 2⟩]) := by decide +kernel

/-! ## C12 -/

/-- Simplification returns for every input and keeps the size of the unit. -/
theorem C12_simplify (top bot : UList) :
    ∃ t b, simplifyUnits top bot = .ok (t, b) ∧
      ∀ ρ, Coherent ρ → lsize ρ t / lsize ρ b = lsize ρ top / lsize ρ bot := by
  obtain ⟨t, b, e⟩ := simplifyUnits_ok top bot
  refine ⟨t, b, e, fun ρ hρ => ?_⟩
  have := simplifyUnits_net hρ.laws e
  simp only [lsize_eq hρ.pos, ← Real.exp_sub]
  exact congrArg Real.exp this

/-- The same as formal exponents. -/
theorem C12_simplify_formal {V : Type*} [AddCommGroup V] [Module ℚ V] (w : Sym → V)
    (hw : DerivedLaws w) (top bot : UList) :
    ∃ t b, simplifyUnits top bot = .ok (t, b) ∧ net w t b = net w top bot := by
  obtain ⟨t, b, e⟩ := simplifyUnits_ok top bot
  exact ⟨t, b, e, simplifyUnits_net hw e⟩

/-- The bound on the number of rounds in the model is immaterial. -/
theorem C12_rounds_immaterial (top bot : UList) (k : ℕ) :
    ∃ r, simplLoop ((simplPotential top bot).num.toNat + 1) top bot = .ok r ∧
      simplLoop ((simplPotential top bot).num.toNat + 1 + k) top bot = .ok r := by
  obtain ⟨t, b, e⟩ := simplifyUnits_ok top bot
  unfold simplifyUnits at e
  split at e
  · cases e
  · rename_i t' b' e'
    exact ⟨_, e', simplLoop_mono _ _ _ _ _ e'⟩

/-- Several rounds are needed here. -/
example : simplifyUnits [⟨c!"kg", 3⟩, ⟨c!"m", 4⟩] [⟨c!"s", 8⟩] =
    .ok ([⟨c!"kg", 1⟩, ⟨c!"W", 2⟩], [⟨c!"s", 2⟩]) := by decide +kernel

/-! ## C13 -/

/-- Cancelling keeps the net exponent of every symbol. -/
theorem C13_cancel_net (top bot : UList) (s : Sym) :
    symExp s (cancelUnits top bot).1 - symExp s (cancelUnits top bot).2 = symExp s top - symExp s bot := by
  simp only [symExp_eq]
  exact cancelUnits_net _ top bot

/-- Combining keeps the total exponent of every symbol. -/
theorem C13_combine_total (l : UList) (s : Sym) : symExp s (combineUnits l) = symExp s l := by
  simp only [symExp_eq]; exact combineUnits_wsum _ l

/-- After combining, at most one entry per symbol is nonzero. -/
theorem C13_combine_once (l : UList) (s : Sym) : occurrences s (combineUnits l) ≤ 1 := by
  have key : ∀ n ≤ l.length, ((List.range n).foldl combineAt l).map (·.unit) = l.map (·.unit) ∧
      ∀ s ∈ (l.map (·.unit)).take n, occurrences s ((List.range n).foldl combineAt l) ≤ 1 := by
    intro n hn
    induction n with
    | zero => simp
    | succ n ih =>
      obtain ⟨h1, h2⟩ := ih (by omega)
      rw [List.range_succ, List.foldl_append, List.foldl_cons, List.foldl_nil]
      set l' := (List.range n).foldl combineAt l with hl'
      have hlen : l'.length = l.length := by simpa using congrArg List.length h1
      have hn' : n < l'.length := by omega
      have ed : l'.drop n = l'[n] :: l'.drop (n + 1) := List.drop_eq_getElem_cons hn'
      refine ⟨by rw [combineAt_units, h1], fun s hs => ?_⟩
      by_cases hsu : s = l'[n].unit
      · subst hsu; exact combineAt_occ_self l' n _ _ ed
      · rw [combineAt_occ_other l' n _ _ ed s hsu]
        apply h2
        have hn2 : n < (l.map (·.unit)).length := by simpa using (by omega : n < l.length)
        rw [List.take_succ_eq_append_getElem hn2] at hs
        rcases List.mem_append.1 hs with hs | hs
        · exact hs
        · rw [List.mem_singleton] at hs
          exfalso; apply hsu; rw [hs]
          have : (l'.map (·.unit))[n]'(by simpa using hn') = (l.map (·.unit))[n]'hn2 := by
            simp only [h1]
          simpa using this.symm
  unfold combineUnits
  obtain ⟨h1, h2⟩ := key l.length le_rfl
  by_cases hs : s ∈ l.map (·.unit)
  · apply h2
    rw [List.take_of_length_le (by simp)]; exact hs
  · rw [← h1] at hs
    have : occurrences s ((List.range l.length).foldl combineAt l) = 0 := by
      rw [occurrences, List.countP_eq_zero]
      intro u hu
      simp only [decide_eq_true_eq, not_and_or]
      left; intro e; exact hs (List.mem_map.2 ⟨u, hu, e⟩)
    omega

/-- A list with a symbol three times. -/
example : combineUnits [⟨c!"m", 1⟩, ⟨c!"s", 2⟩, ⟨c!"m", 2⟩, ⟨c!"m", -5⟩] =
    [⟨c!"m", 0⟩, ⟨c!"s", 2⟩, ⟨c!"m", 0⟩, ⟨c!"m", -2⟩] := by decide +kernel

example : cancelUnits [⟨c!"m", 1⟩, ⟨c!"s", 2⟩] [⟨c!"m", 3⟩, ⟨c!"s", 1⟩] =
    ([⟨c!"s", 1⟩], [⟨c!"m", 2⟩]) := by decide +kernel

end Verif
