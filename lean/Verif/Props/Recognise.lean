import Verif.Lemmas.Recognise
import Verif.Props.Canonical

/-! # C77: simplification is complete and recognises the derived units -/

namespace Verif

/-! ## Completeness -/

/-- Whatever units are simplified, no derived unit can be written in the result. -/
theorem C77_irreducible (top bot t b : UList) (h : simplifyUnits top bot = .ok (t, b)) : Irreducible t b := by
  unfold simplifyUnits at h
  split at h
  · cases h
  · rename_i t' b' e
    have h' := simplLoop_irreducible _ _ _ _ _ e
    rw [commonSimplifications_eq] at h
    simp only [Except.ok.injEq] at h
    split_ifs at h <;> (simp only [Prod.mk.injEq] at h; obtain ⟨rfl, rfl⟩ := h)
    · decide +kernel
    · decide +kernel
    · decide +kernel
    · exact h'

/-- Simplifying again changes nothing. -/
theorem C77_idempotent (top bot t b : UList) (h : simplifyUnits top bot = .ok (t, b)) :
    simplifyUnits t b = .ok (t, b) := by
  have hi := C77_irreducible top bot t b h
  unfold simplifyUnits at h ⊢
  rw [simplLoop_fixed _ hi]
  simp only
  split at h
  · cases h
  · rename_i t' b' e
    rw [commonSimplifications_eq] at h ⊢
    simp only [Except.ok.injEq] at h ⊢
    by_cases h1 : [⟨c!"kg", 1⟩] = t' ∧ [⟨c!"s", 3⟩, ⟨c!"K", 1⟩] = b'
    · rw [if_pos h1] at h; cases h; decide +kernel
    · by_cases h2 : [⟨c!"kg", 1⟩] = t' ∧ [⟨c!"K", 1⟩, ⟨c!"s", 3⟩] = b'
      · rw [if_neg h1, if_pos h2] at h; cases h; decide +kernel
      · by_cases h3 : [⟨c!"kg", 1⟩] = t' ∧ [⟨c!"s", 3⟩] = b'
        · rw [if_neg h1, if_neg h2, if_pos h3] at h; cases h; decide +kernel
        · rw [if_neg h1, if_neg h2, if_neg h3] at h; cases h
          rw [if_neg h1, if_neg h2, if_neg h3]

/-- In each round the first of the definitions with the greatest multiplicity is replaced. -/
theorem C77_greatest_first (n : ℕ) (top bot : UList) (h : ¬ Irreducible top bot) :
    ∃ pre d post m, (definitions.filter fun d => decide (Occurs d top bot 1)) = pre ++ d :: post ∧
      Multiplicity d top bot m ∧ (∀ x ∈ pre, ∀ k, Multiplicity x top bot k → k < m) ∧
      (∀ x ∈ post, ∀ k, Multiplicity x top bot k → k ≤ m) ∧
      simplLoop (n + 1) top bot = simplLoop n
        ((cancelUnits (top ++ d.2.2.map (·.pow m)) (bot ++ d.2.1.map (·.pow m))).1 ++ [⟨d.1, m⟩])
        (cancelUnits (top ++ d.2.2.map (·.pow m)) (bot ++ d.2.1.map (·.pow m))).2 :=
  simplLoop_round n h

/-- kg²m²/s⁴ contains J and Pa is absent, kg³m⁴/s⁸ contains J twice; W/m² contains nothing. -/
example : ¬ Irreducible [⟨c!"kg", 3⟩, ⟨c!"m", 4⟩] [⟨c!"s", 8⟩] ∧ Irreducible [⟨c!"W", 1⟩] [⟨c!"m", 2⟩] ∧
    simplifyUnits [⟨c!"kg", 3⟩, ⟨c!"m", 4⟩] [⟨c!"s", 8⟩] = .ok ([⟨c!"kg", 1⟩, ⟨c!"W", 2⟩], [⟨c!"s", 2⟩]) := by decide +kernel

/-- The units of a value are irreducible. -/
def Val.Irreducible {K : Type} : Val K → Prop
  | .multi m => Verif.Irreducible m.top m.bot
  | _ => True

theorem reduceUnits_irreducible {K : Type} [Field K] [LinearOrder K] [PyPow K] {x y : Bool} {top bot t b : UList} {f : K}
    (h : reduceUnits x y top bot = .ok (t, b, f)) : Verif.Irreducible t b := by
  unfold reduceUnits at h
  split at h
  · cases h
  · split at h
    · cases h
    · simp only at h
      split at h
      · cases h
      · rename_i e
        simp only [Except.ok.injEq, Prod.mk.injEq] at h
        obtain ⟨rfl, rfl, -⟩ := h
        exact C77_irreducible _ _ _ _ e

theorem packDiv_irreducible {K : Type} {v : K} {t b : UList} (h : Verif.Irreducible t b) :
    (packDiv v t b).Irreducible := by
  unfold packDiv; split <;> trivial

theorem packMul_irreducible {K : Type} {v : K} {t b : UList} (h : Verif.Irreducible t b) :
    (packMul v t b).Irreducible := by
  unfold packMul; split <;> trivial

section
variable {K : Type} [Field K] [LinearOrder K] [PyPow K]

/-- The product of a compound quantity with a quantity is irreducible, in either order. -/
theorem C77_product_irreducible (m : MultiV K) (x r : Val K) (hx : (∃ o, x = .multi o) ∨ ∃ u, x = .unit u)
    (h : Val.mul (.multi m) x = .ok r ∨ Val.mul x (.multi m) = .ok r) : r.Irreducible := by
  have mm : ∀ m o : MultiV K, multiMulMulti m o = .ok r → r.Irreducible := by
    intro m o h
    unfold multiMulMulti at h
    split at h
    · cases h
    · rename_i e; cases h; exact reduceUnits_irreducible e
  have mu : ∀ (m : MultiV K) (u : UnitV K), multiMulUnit m u = .ok r → r.Irreducible := by
    intro m u h
    unfold multiMulUnit at h
    split at h
    · cases h
    · rename_i e; cases h; exact packMul_irreducible (reduceUnits_irreducible e)
  rcases hx with ⟨o, rfl⟩ | ⟨u, rfl⟩
  · rcases h with h | h <;> exact mm _ _ h
  · rcases h with h | h <;> exact mu _ _ h

/-- So is a quotient with a compound quantity on either side, and a power of a compound quantity. -/
theorem C77_quotient_irreducible (m : MultiV K) (x r : Val K) (hx : (∃ o, x = .multi o) ∨ ∃ u, x = .unit u)
    (h : Val.div (.multi m) x = .ok r ∨ Val.div x (.multi m) = .ok r) : r.Irreducible := by
  have mm : ∀ m o : MultiV K, multiDivMulti m o = .ok r → r.Irreducible := by
    intro m o h
    unfold multiDivMulti at h
    split at h
    · split at h
      · cases h
      · cases h; trivial
    · split at h
      · cases h
      · rename_i e
        split at h
        · cases h
        · cases h; exact packDiv_irreducible (reduceUnits_irreducible e)
  have mu : ∀ (m : MultiV K) (u : UnitV K), multiDivUnit m u = .ok r → r.Irreducible := by
    intro m u h
    unfold multiDivUnit at h
    split at h
    · cases h
    · rename_i e
      split at h
      · cases h
      · cases h; exact packDiv_irreducible (reduceUnits_irreducible e)
  have um : ∀ (m : MultiV K) (u : UnitV K), unitDivMulti u m = .ok r → r.Irreducible := by
    intro m u h
    unfold unitDivMulti at h
    split at h
    · cases h
    · rename_i e
      split at h
      · cases h
      · cases h; exact packDiv_irreducible (reduceUnits_irreducible e)
  rcases hx with ⟨o, rfl⟩ | ⟨u, rfl⟩
  · rcases h with h | h <;> exact mm _ _ h
  · rcases h with h | h
    · exact mu _ _ h
    · exact um _ _ h

omit [Field K] [LinearOrder K] in
theorem C77_power_irreducible (m : MultiV K) (e : ℚ) (r : Val K) (h : Val.pow (.multi m) e = .ok r) : r.Irreducible := by
  simp only [Val.pow, multiPow] at h
  split at h
  · cases h
  · rename_i t b er
    split at h
    · cases h
    · cases h
      unfold reducePow at er
      split at er
      · cases er
      · exact C77_irreducible _ _ _ _ er

end

/-- Products of two simple quantities are not simplified: 2 A times 3 s is 6 A·s, not 6 C. -/
theorem C77_simple_false : Val.mul (.unit (⟨.current, 2, c!"A", 1⟩ : UnitV ℚ)) (.unit ⟨.time, 3, c!"s", 1⟩) =
      .ok (.multi ⟨.multi, 6, [⟨c!"A", 1⟩, ⟨c!"s", 1⟩], []⟩) ∧
    ¬ Irreducible [⟨c!"A", 1⟩, ⟨c!"s", 1⟩] [] := by decide +kernel

/-! ## Recognition -/

/-- The pipeline on units that need no preparation. -/
theorem reduce_plain {t b r1 r2 : UList} (k : ℕ) (h1 : UnprefixedList t) (h2 : UnprefixedList b)
    (d1 : deconstructUnits t b = .ok (t, b)) (d2 : combineUnits t = t) (d3 : combineUnits b = b)
    (d4 : cancelUnits t b = (t, b)) (d5 : simplLoop k t b = .ok (r1, r2))
    (d6 : commonSimplifications r1 r2 = .ok (r1, r2)) : reduceUnits (K := ℝ) true true t b = .ok (r1, r2, 1) := by
  obtain ⟨x, y, e⟩ := simplifyUnits_ok t b
  have hs : simplifyUnits t b = .ok (r1, r2) := by
    unfold simplifyUnits at e ⊢
    split at e
    · cases e
    · rename_i t' b' e'
      have a1 := simplLoop_mono _ k _ _ _ e'
      have a2 := simplLoop_mono _ ((simplPotential t b).num.toNat + 1) _ _ _ d5
      rw [Nat.add_comm, a2] at a1
      cases a1
      exact d6
  simp only [reduceUnits, deconstructPrefixes_unprefixed h1 h2, d1, d2, d3, d4, if_true, hs]

set_option maxRecDepth 4000

/-- One round of the loop when a single definition occurs. -/
theorem round_of {top bot : UList} {k : Sym} {n : ℚ} {t b x y : UList} (j : ℕ) (hr : DeconRule k t b) (hn : n ≠ 0)
    (h : matchLoop top bot deconTable = .ok [(k, n)])
    (hc : cancelUnits (top ++ b.map (·.pow n)) (bot ++ t.map (·.pow n)) = (x, y)) {r : PyM (UList × UList)}
    (h' : simplLoop j (x ++ [⟨k, n⟩]) y = r) : simplLoop (j + 1) top bot = r := by
  rw [simplLoop, h]
  simp only [List.map_cons, List.map_nil, List.sum_cons, List.sum_nil, add_zero, hn, if_false, bestMatch, applyMatch_eq hr, hc]
  exact h'

/-- Evaluate the loop over the definitions. -/
macro "eval_matches" : tactic => `(tactic|
  simp [matchLoop, deconTable, countMatches, parse_Pa, parse_J, parse_W, parse_psi, parse_cP, parse_C, parse_V,
    symbolsIn, expsMatch, lowerMatches, lowerInner, *])

/-- A single derived unit is irreducible. -/
theorem simplLoop_single {k : Sym} (n : ℚ) :
    simplLoop 1 [⟨k, n⟩] [] = .ok ([⟨k, n⟩], []) := by
  refine simplLoop_fixed 0 fun d hd h => ?_
  have h0 : ∀ d ∈ definitions, d.2.2 = [] → ∃ u v, u ∈ d.2.1 ∧ v ∈ d.2.1 ∧ u.unit ≠ v.unit := by
    intro d hd
    simp only [definitions, List.mem_cons, List.not_mem_nil, or_false] at hd
    rcases hd with rfl | rfl | rfl | rfl | rfl | rfl | rfl
    all_goals simp
  by_cases hb : d.2.2 = []
  · obtain ⟨u, v, hu, hv, hne⟩ := h0 d hd hb
    obtain ⟨x, hx, ex⟩ := h.1.ex u hu
    obtain ⟨y, hy, ey⟩ := h.1.ex v hv
    simp only [List.mem_singleton] at hx hy
    exact hne (by rw [← ex, ← ey, hx, hy])
  · obtain ⟨u, hu⟩ := List.exists_mem_of_ne_nil _ hb
    obtain ⟨v, hv, -⟩ := h.2.ex u hu
    cases hv

/-- Base units of the recognised powers. -/
def baseForm (k : Sym) (n : ℚ) : UList × UList :=
  if k = c!"Pa" then ([⟨c!"kg", n⟩], [⟨c!"m", n⟩, ⟨c!"s", 2 * n⟩])
  else if k = c!"J" then ([⟨c!"kg", n⟩, ⟨c!"m", 2 * n⟩], [⟨c!"s", 2 * n⟩])
  else if k = c!"W" then ([⟨c!"kg", n⟩, ⟨c!"m", 2 * n⟩], [⟨c!"s", 3 * n⟩])
  else if k = c!"psi" then ([⟨c!"lbf", n⟩], [⟨c!"in", 2 * n⟩])
  else if k = c!"cP" then ([⟨c!"g", n⟩], [⟨c!"m", n⟩, ⟨c!"s", n⟩])
  else ([⟨c!"A", n⟩, ⟨c!"s", n⟩], [])

def recognised : List Sym := [c!"Pa", c!"J", c!"W", c!"psi", c!"cP", c!"C"]

theorem baseForm_loop {k : Sym} (hk : k ∈ recognised) (n : ℚ) (h1 : 1 ≤ n) (h2 : n ≤ 100) :
    simplLoop 3 (baseForm k n).1 (baseForm k n).2 = .ok ([⟨k, n⟩], []) := by
  have hn : n ≠ 0 := by linarith
  have f1 : ¬ n < 1 := by linarith
  have f2 : ¬ 3 * n < 2 := by linarith
  have f3 : (if n < 100 then n else 100) = n := by split_ifs <;> linarith
  have f4 : ¬ 3 * n / 2 < n := by linarith
  have f5 : 0 < n := by linarith
  have f6 : ¬ n < 0 := by linarith
  have f7 : 0 ≤ n := by linarith
  have mono : ∀ {t b r}, simplLoop 2 t b = .ok r → simplLoop 3 t b = .ok r := fun h => simplLoop_mono 2 1 _ _ _ h
  simp only [recognised, List.mem_cons, List.not_mem_nil, or_false] at hk
  rcases hk with rfl | rfl | rfl | rfl | rfl | rfl <;> simp only [baseForm, List.cons.injEq, Char.reduceEq, false_and, reduceCtorEq, if_false, if_true, and_self]
  · refine mono (round_of 1 .Pa hn (x := []) (y := []) (by eval_matches) ?_ (simplLoop_single (k := c!"Pa") n))
    simp [cancelUnits, cancelLoop, cancelInner, BaseUnit.pow, hn]
  · refine mono (round_of 1 .J hn (x := []) (y := []) (by eval_matches) ?_ (simplLoop_single (k := c!"J") n))
    simp [cancelUnits, cancelLoop, cancelInner, BaseUnit.pow, hn]
  · refine round_of 2 .J hn (x := []) (y := [⟨c!"s", n⟩]) (by eval_matches) ?_ ?_
    · simp [cancelUnits, cancelLoop, cancelInner, BaseUnit.pow, *]
      have f8 : 2 * n - 3 * n = -n := by ring
      simp only [f8]
      refine ⟨by norm_num, ⟨c!"s", -n⟩, ?_, rfl, neg_neg n⟩
      simp [f5]
    · refine round_of 1 .W hn (x := []) (y := []) (by eval_matches) ?_ (simplLoop_single (k := c!"W") n)
      simp [cancelUnits, cancelLoop, cancelInner, BaseUnit.pow, hn]
  · refine mono (round_of 1 .psi hn (x := []) (y := []) (by eval_matches) ?_ (simplLoop_single (k := c!"psi") n))
    simp [cancelUnits, cancelLoop, cancelInner, BaseUnit.pow, hn]
  · refine mono (round_of 1 .cP hn (x := []) (y := []) (by eval_matches) ?_ (simplLoop_single (k := c!"cP") n))
    simp [cancelUnits, cancelLoop, cancelInner, BaseUnit.pow, hn]
  · refine mono (round_of 1 .C hn (x := []) (y := []) (by eval_matches) ?_ (simplLoop_single (k := c!"C") n))
    simp [cancelUnits, cancelLoop, cancelInner, BaseUnit.pow, hn]

theorem baseForm_reduce {k : Sym} (hk : k ∈ recognised) (n : ℚ) (h1 : 1 ≤ n) (h2 : n ≤ 100) :
    UnprefixedList (baseForm k n).1 ∧ UnprefixedList (baseForm k n).2 ∧
      reduceUnits (K := ℝ) true true (baseForm k n).1 (baseForm k n).2 = .ok ([⟨k, n⟩], [], 1) := by
  have hn : n ≠ 0 := by linarith
  have f5 : 0 < n := by linarith
  have f6 : ¬ n < 0 := by linarith
  have f7 : 0 ≤ n := by linarith
  have hu : UnprefixedList (baseForm k n).1 ∧ UnprefixedList (baseForm k n).2 := by
    simp only [recognised, List.mem_cons, List.not_mem_nil, or_false] at hk
    rcases hk with rfl | rfl | rfl | rfl | rfl | rfl <;>
      simp only [baseForm, List.cons.injEq, Char.reduceEq, reduceCtorEq, if_false, if_true, and_self,
        UnprefixedList, List.forall_mem_cons, List.not_mem_nil, false_imp_iff, implies_true, and_true] <;> decide +kernel
  refine ⟨hu.1, hu.2, reduce_plain 3 hu.1 hu.2 ?_ ?_ ?_ ?_ (baseForm_loop hk n h1 h2) ?_⟩
  · clear hu
    simp only [recognised, List.mem_cons, List.not_mem_nil, or_false] at hk
    rcases hk with rfl | rfl | rfl | rfl | rfl | rfl <;>
      simp [baseForm, deconstructUnits, deconLoop, deconRound, passFuel, passWeight, deconPass,
        deconDef, lookupSym, deconTable]
  · clear hu
    simp only [recognised, List.mem_cons, List.not_mem_nil, or_false] at hk
    rcases hk with rfl | rfl | rfl | rfl | rfl | rfl <;>
      simp [baseForm, combineUnits, combineAt, absorb, List.range_succ]
  · clear hu
    simp only [recognised, List.mem_cons, List.not_mem_nil, or_false] at hk
    rcases hk with rfl | rfl | rfl | rfl | rfl | rfl <;>
      simp [baseForm, combineUnits, combineAt, absorb, List.range_succ]
  · clear hu
    simp only [recognised, List.mem_cons, List.not_mem_nil, or_false] at hk
    rcases hk with rfl | rfl | rfl | rfl | rfl | rfl <;>
      simp [baseForm, cancelUnits, cancelLoop, cancelInner, hn, f5, f6, f7]
  · clear hu
    rw [commonSimplifications_eq]
    simp

/-- A reduced quantity of the formal weight of a power of a derived unit is written in that unit. -/
theorem reduce_recognised {k : Sym} (hk : k ∈ recognised) {n : ℚ} (h1 : 1 ≤ n) (h2 : n ≤ 100) {top bot : UList}
    (ht : WellPrefixedList top) (hb : WellPrefixedList bot) (n1 : AllNonneg top) (n2 : AllNonneg bot)
    (hw : ∀ w, FormalWeight w → net w top bot = n * w k) :
    reduceUnits (K := ℝ) true true top bot = .ok ([⟨k, n⟩], [], prefixProd top / prefixProd bot) := by
  obtain ⟨u1, u2, e⟩ := baseForm_reduce hk n h1 h2
  have hn0 : 0 ≤ n := by linarith
  have hnn : AllNonneg (baseForm k n).1 ∧ AllNonneg (baseForm k n).2 := by
    clear e u1 u2 hw
    simp only [recognised, List.mem_cons, List.not_mem_nil, or_false] at hk
    rcases hk with rfl | rfl | rfl | rfl | rfl | rfl <;> simp [baseForm, AllNonneg, hn0]
  have hnet : ∀ w, FormalWeight w → net w (baseForm k n).1 (baseForm k n).2 = n * w k := by
    intro w hw
    have a1 := hw.pascal
    have a2 := hw.joule
    have a3 := hw.watt
    have a4 := hw.psi
    have a5 := hw.centipoise
    have a6 := hw.coulomb
    clear e u1 u2 hnn
    simp only [recognised, List.mem_cons, List.not_mem_nil, or_false] at hk
    rcases hk with rfl | rfl | rfl | rfl | rfl | rfl <;> simp [baseForm, net, wsum_cons] at * <;>
      simp only [a1, a2, a3, a4, a5, a6] <;> ring
  obtain ⟨t, b, t', b', e1, e2, s1, s2⟩ := reduce_canonical ht hb u1.well u2.well n1 n2 hnn.1 hnn.2
    fun w h => (hw w h).trans (hnet w h).symm
  rw [e] at e2
  simp only [Except.ok.injEq, Prod.mk.injEq] at e2
  obtain ⟨rfl, rfl, -⟩ := e2
  rw [e1, same_single s1.symm, (proj_sum_length b).2 fun s => s2 s]

/-- Recognition in products: whatever units with prefixes the factors are written in, if the units are formally those of
`k^n` the product is written in `k`, and has the right magnitude. -/
theorem C77_product_recognised_partial (a b : MultiV ℝ) (ha : a.Genuine) (hb : b.Genuine) (na : a.NoNegative)
    (nb : b.NoNegative) (k : Sym) (hk : k ∈ recognised) (n : ℚ) (h1 : 1 ≤ n) (h2 : n ≤ 100)
    (hu : UnitsCancel (a.top ++ b.top) (a.bot ++ b.bot ++ [⟨k, n⟩])) :
    ∃ v, Val.mul (.multi a) (.multi b) = .ok (.multi ⟨.multi, v, [⟨k, n⟩], []⟩) ∧
      ∀ ρ, Coherent ρ → v * ρ k ^ (n : ℝ) = a.mag ρ * b.mag ρ := by
  have e := reduce_recognised hk h1 h2 (wellPrefixed_append ha.1 hb.1) (wellPrefixed_append ha.2 hb.2)
    (na.1.append nb.1) (na.2.append nb.2) fun w hw => by
      have := hu w hw
      simp only [net, wsum_append, wsum_cons, wsum_nil, add_zero, smul_eq_mul] at this ⊢
      linarith
  refine ⟨a.value * b.value * (prefixProd (a.top ++ b.top) / prefixProd (a.bot ++ b.bot)),
    by simp only [Val.mul, multiMul, multiMulMulti, e], fun ρ hρ => ?_⟩
  obtain ⟨c, ec, -, hm, -⟩ := mul_multi_full a b ha hb
  simp only [Val.mul, multiMul, multiMulMulti, e, Except.ok.injEq, Val.multi.injEq] at ec
  rw [← hm ρ hρ, ← ec]
  simp [MultiV.mag, mag, lsize]

/-- Recognition in quotients, which come out as a simple quantity. -/
theorem C77_quotient_recognised_partial (a b : MultiV ℝ) (ha : a.Genuine) (hb : b.Genuine) (na : a.NoNegative)
    (nb : b.NoNegative) (hv : b.value ≠ 0) (k : Sym) (hk : k ∈ recognised) (n : ℚ) (h1 : 1 ≤ n) (h2 : n ≤ 100)
    (hu : UnitsCancel (a.top ++ b.bot) (a.bot ++ b.top ++ [⟨k, n⟩])) :
    ∃ v, Val.div (.multi a) (.multi b) = .ok (.unit ⟨.unit, v, k, n⟩) ∧
      ∀ ρ, Coherent ρ → v * ρ k ^ (n : ℝ) = a.mag ρ / b.mag ρ := by
  have w1 := wellPrefixed_append ha.1 hb.2
  have w2 := wellPrefixed_append ha.2 hb.1
  have e := reduce_recognised hk h1 h2 w1 w2 (na.1.append nb.2) (na.2.append nb.1) fun w hw => by
      have := hu w hw
      simp only [net, wsum_append, wsum_cons, wsum_nil, add_zero, smul_eq_mul] at this ⊢
      linarith
  have hs : ¬ (a.top = b.top ∧ a.bot = b.bot) := by
    intro hs
    have hcan := reduce_complete true w1 w2 (fun w hw => by simp only [net, wsum_append, hs.1, hs.2]; ring) (by simp)
    rw [e] at hcan
    simp at hcan
  refine ⟨a.value / b.value * (prefixProd (a.top ++ b.bot) / prefixProd (a.bot ++ b.top)),
    by simp only [Val.div, multiDiv, multiDivMulti, hs, if_false, e, pyDiv_ne hv, packDiv], fun ρ hρ => ?_⟩
  obtain ⟨t0, b0, e0, -, -, -, h0⟩ := reduce_full true true w1 w2
  rw [e] at e0; cases e0
  have g0 := h0 ρ hρ (a.value / b.value)
  simp only [mag, lsize_append] at g0
  simp only [MultiV.mag, mag]
  have p1 := (lsize_pos hρ.pos a.bot).ne'
  have p2 := (lsize_pos hρ.pos b.top).ne'
  have p3 := (lsize_pos hρ.pos b.bot).ne'
  have p4 := (lsize_pos hρ.pos a.top).ne'
  have : Verif.lsize ρ [⟨k, n⟩] / Verif.lsize ρ [] = ρ k ^ (n : ℝ) := by simp [Verif.lsize]
  rw [this] at g0
  rw [g0]
  field_simp

/-- 3 kPa times 2 cm·m² is recognised as an energy. -/
example : ∃ v : ℝ, Val.mul (.multi ⟨.multi, 3, [⟨c!"kPa", 1⟩], []⟩) (.multi ⟨.multi, 2, [⟨c!"cm", 1⟩, ⟨c!"m", 2⟩], []⟩) =
    .ok (.multi ⟨.multi, v, [⟨c!"J", 1⟩], []⟩) := by
  obtain ⟨v, h, -⟩ := C77_product_recognised_partial ⟨.multi, 3, [⟨c!"kPa", 1⟩], []⟩
    ⟨.multi, 2, [⟨c!"cm", 1⟩, ⟨c!"m", 2⟩], []⟩ (by decide) (by decide) (by constructor <;> simp [AllNonneg])
    (by constructor <;> simp [AllNonneg]) c!"J" (by decide) 1 le_rfl (by norm_num) fun w hw => by
      have a1 := hw.si ('k', 1000) (by decide +kernel) c!"Pa" (by decide) (by decide)
      have a2 := hw.si ('c', 1 / 100) (by decide +kernel) c!"m" (by decide) (by decide)
      have a3 := hw.pascal
      have a4 := hw.joule
      simp only [net, wsum_append, wsum_cons, wsum_nil, smul_eq_mul, a1, a2, a3, a4]
      ring
  exact ⟨v, h⟩

/-- The volt is never recognised: v V·s divided by 2 s is v/2 W/A. -/
theorem C77_volt_false (v : ℝ) :
    Val.div (.multi ⟨.multi, v, [⟨c!"V", 1⟩, ⟨c!"s", 1⟩], []⟩) (.multi ⟨.multi, 2, [⟨c!"s", 1⟩], []⟩) =
      .ok (.multi ⟨.multi, v / 2, [⟨c!"W", 1⟩], [⟨c!"A", 1⟩]⟩) := by
  have h2 : (2 : ℝ) ≠ 0 := two_ne_zero
  units_eval [Val.div, multiDiv, multiDivMulti, pyDiv_ne h2, packDiv]

/-- Nor is the root of a derived unit: the square root of 1 J is written in kg^(1/2)·m/s. -/
theorem C77_root_false : reducePow [⟨c!"J", 1 / 2⟩] [] = .ok ([⟨c!"kg", 1 / 2⟩, ⟨c!"m", 1⟩], [⟨c!"s", 1⟩]) := by
  decide +kernel

end Verif
