import Verif.Lemmas.Canonical
import Verif.Tactic.UnitsEval

/-!
# C63: products and quotients do not depend on how they are formed

`==` compares the exponents as numbers here; see DESIGN.md for exponents of different Python types.
-/

namespace Verif

/-- No exponent is negative. -/
def MultiV.NoNegative {K : Type} (m : MultiV K) : Prop := AllNonneg m.top ∧ AllNonneg m.bot

theorem eq_multi_of_same {v v' : ℝ} {t b t' b' : UList} (hv : v = v') (h1 : Same t t') (h2 : Same b b') :
    Val.eq (.multi ⟨.multi, v, t, b⟩) (.multi ⟨.multi, v', t', b'⟩) = true := by
  subst hv
  simp only [Val.eq, multiEq, h1.setEq, h2.setEq, decide_true, Bool.and_self]

theorem eq_packDiv_of_same {v v' : ℝ} {t b t' b' : UList} (hv : v = v') (h1 : Same t t') (h2 : Same b b') :
    Val.eq (packDiv v t b) (packDiv v' t' b') = true := by
  subst hv
  have e0 : ∀ {l : UList}, Same [] l → l = [] := fun h => (proj_sum_length _).2 fun s => (h s).symm
  have hunit : ∀ u : UnitV ℝ, Val.eq (.unit u) (.unit u) = true := fun u => by
    simp only [Val.eq, unitEq, unitEqMethod, decide_true, Bool.true_or, Bool.and_self, ite_self]
  match t, b with
  | [], [] => rw [e0 h1, e0 h2]; simp [packDiv, Val.eq]
  | [u], [] => rw [same_single h1, e0 h2]; exact hunit _
  | [], [u] => rw [e0 h1, same_single h2]; exact hunit _
  | u :: w :: t, b =>
    have hl := same_length h1
    match t', hl with
    | u' :: w' :: t', _ => exact eq_multi_of_same rfl h1 h2
  | [], u :: w :: b =>
    rw [e0 h1]
    have hl := same_length h2
    match b', hl with
    | u' :: w' :: b', _ => exact eq_multi_of_same rfl (.refl _) h2
  | [u], w :: b =>
    rw [same_single h1]
    have hl := same_length h2
    match b', hl with
    | w' :: b', _ => exact eq_multi_of_same rfl (.refl _) h2

/-- Products that stand for the same quantity compare equal: the same formal units and the same magnitude. -/
theorem C63_products_equal (a b c d : MultiV ℝ) (ha : a.Genuine) (hb : b.Genuine) (hc : c.Genuine) (hd : d.Genuine)
    (na : a.NoNegative) (nb : b.NoNegative) (nc : c.NoNegative) (nd : d.NoNegative)
    (hu : UnitsCancel (a.top ++ b.top ++ (c.bot ++ d.bot)) (a.bot ++ b.bot ++ (c.top ++ d.top)))
    (ρ : Sym → ℝ) (hρ : Coherent ρ) (hm : a.mag ρ * b.mag ρ = c.mag ρ * d.mag ρ) :
    ∃ r r', Val.mul (.multi a) (.multi b) = .ok r ∧ Val.mul (.multi c) (.multi d) = .ok r' ∧ Val.eq r r' = true := by
  obtain ⟨t, b1, t', b1', e, e', s1, s2, hv⟩ := reduce_same_quantity (v := a.value * b.value)
    (v' := c.value * d.value)
    (wellPrefixed_append ha.1 hb.1) (wellPrefixed_append ha.2 hb.2) (wellPrefixed_append hc.1 hd.1)
    (wellPrefixed_append hc.2 hd.2) (na.1.append nb.1) (na.2.append nb.2) (nc.1.append nd.1) (nc.2.append nd.2)
    (fun w hw => by
      have := hu w hw
      simp only [net, wsum_append] at this ⊢; linarith) hρ (by
      simp only [MultiV.mag, mag, lsize_append] at hm ⊢
      calc _ = a.value * (lsize ρ a.top / lsize ρ a.bot) * (b.value * (lsize ρ b.top / lsize ρ b.bot)) := by
            rw [mul_div_mul_comm]; ring
        _ = _ := hm
        _ = _ := by rw [mul_div_mul_comm]; ring)
  exact ⟨_, _, by simp only [Val.mul, multiMul, multiMulMulti, e], by simp only [Val.mul, multiMul, multiMulMulti, e'],
    eq_multi_of_same hv s1 s2⟩

/-- Quotients that stand for the same quantity compare equal, whatever they come out as. -/
theorem C63_quotients_equal (a b c d : MultiV ℝ) (ha : a.Genuine) (hb : b.Genuine) (hc : c.Genuine) (hd : d.Genuine)
    (na : a.NoNegative) (nb : b.NoNegative) (nc : c.NoNegative) (nd : d.NoNegative)
    (hvb : b.value ≠ 0) (hvd : d.value ≠ 0)
    (hu : UnitsCancel (a.top ++ b.bot ++ (c.bot ++ d.top)) (a.bot ++ b.top ++ (c.top ++ d.bot)))
    (ρ : Sym → ℝ) (hρ : Coherent ρ) (hm : a.mag ρ / b.mag ρ = c.mag ρ / d.mag ρ) :
    ∃ r r', Val.div (.multi a) (.multi b) = .ok r ∧ Val.div (.multi c) (.multi d) = .ok r' ∧ Val.eq r r' = true := by
  have key : ∀ p q : MultiV ℝ, mag ρ (p.value / q.value) (p.top ++ q.bot) (p.bot ++ q.top) = p.mag ρ / q.mag ρ := by
    intro p q
    simp only [MultiV.mag, mag, lsize_append]
    have h1 := (lsize_pos hρ.pos p.bot).ne'
    have h2 := (lsize_pos hρ.pos q.top).ne'
    have h3 := (lsize_pos hρ.pos q.bot).ne'
    have h4 := (lsize_pos hρ.pos p.top).ne'
    by_cases hq : q.value = 0
    · simp [hq]
    · field_simp
  obtain ⟨t, b1, t', b1', e, e', s1, s2, hv⟩ := reduce_same_quantity (v := a.value / b.value)
    (v' := c.value / d.value)
    (wellPrefixed_append ha.1 hb.2) (wellPrefixed_append ha.2 hb.1) (wellPrefixed_append hc.1 hd.2)
    (wellPrefixed_append hc.2 hd.1) (na.1.append nb.2) (na.2.append nb.1) (nc.1.append nd.2) (nc.2.append nd.1)
    (fun w hw => by
      have := hu w hw
      simp only [net, wsum_append] at this ⊢; linarith) hρ (by rw [key, key, hm])
  -- the shortcut for identical units gives what the pipeline would give
  have short : ∀ p q : MultiV ℝ, p.Genuine → q.Genuine → q.value ≠ 0 → ∀ t b, reduceUnits (K := ℝ) true true
      (p.top ++ q.bot) (p.bot ++ q.top) = .ok (t, b, prefixProd (p.top ++ q.bot) / prefixProd (p.bot ++ q.top)) →
      Val.div (.multi p) (.multi q) =
        .ok (packDiv (p.value / q.value * (prefixProd (p.top ++ q.bot) / prefixProd (p.bot ++ q.top))) t b) := by
    intro p q hp hq hv t b e
    by_cases hs : p.top = q.top ∧ p.bot = q.bot
    · have hcan := reduce_complete true (wellPrefixed_append hp.1 hq.2) (wellPrefixed_append hp.2 hq.1)
        (fun w hw => by simp only [net, wsum_append, hs.1, hs.2]; ring) (by simp)
      rw [e] at hcan
      simp only [Except.ok.injEq, Prod.mk.injEq] at hcan
      obtain ⟨rfl, rfl, -⟩ := hcan
      have h1 : prefixProd (p.top ++ q.bot) / prefixProd (p.bot ++ q.top) = 1 := by
        rw [hs.1, hs.2]
        have : prefixProd (q.top ++ q.bot) = prefixProd (q.bot ++ q.top) := by
          simp only [prefixProd]
          exact ((List.perm_append_comm).map _).prod_eq
        rw [this, div_self (prefixProd_pos _).ne']
      simp only [Val.div, multiDiv, multiDivMulti, hs, and_self, if_true, pyDiv_ne hv, packDiv]
      rw [hs.1, hs.2] at h1
      rw [h1, mul_one]
    · simp only [Val.div, multiDiv, multiDivMulti, hs, if_false, e, pyDiv_ne hv]
  exact ⟨_, _, short a b ha hb hvb _ _ e, short c d hc hd hvd _ _ e', eq_packDiv_of_same hv s1 s2⟩

/-- The order of the factors does not matter. -/
theorem C63_mul_comm (a b : MultiV ℝ) (ha : a.Genuine) (hb : b.Genuine) (na : a.NoNegative) (nb : b.NoNegative) :
    ∃ r r', Val.mul (.multi a) (.multi b) = .ok r ∧ Val.mul (.multi b) (.multi a) = .ok r' ∧ Val.eq r r' = true :=
  C63_products_equal a b b a ha hb hb ha na nb nb na
    (fun w _ => by simp only [net, wsum_append]; ring) _ siSize_coherent (mul_comm _ _)

/-- A product of quantities without negative exponents has none, and no prefixes. -/
theorem mul_noNegative (a b : MultiV ℝ) (ha : a.Genuine) (hb : b.Genuine) (na : a.NoNegative) (nb : b.NoNegative) :
    ∃ c : MultiV ℝ, Val.mul (.multi a) (.multi b) = .ok (.multi c) ∧ c.Genuine ∧ c.NoNegative ∧
      (∀ ρ, Coherent ρ → c.mag ρ = a.mag ρ * b.mag ρ) ∧
      (∀ w, FormalWeight w → net w c.top c.bot = net w a.top a.bot + net w b.top b.bot) ∧
      (c.value = 0 ↔ a.value = 0 ∨ b.value = 0) := by
  obtain ⟨c, e, hp, hm, hw, hz⟩ := mul_multi_full a b ha hb
  refine ⟨c, e, ⟨hp.1.well, hp.2.well⟩, ?_, hm, hw, hz⟩
  have w1 := wellPrefixed_append ha.1 hb.1
  have w2 := wellPrefixed_append ha.2 hb.2
  obtain ⟨t, bo, er, -⟩ := reduce_full true true w1 w2
  simp only [Val.mul, multiMul, multiMulMulti, er, Except.ok.injEq, Val.multi.injEq] at e
  subst e
  exact reduce_nonneg w1 w2 (na.1.append nb.1) (na.2.append nb.2) er

/-- The grouping of the factors does not matter. -/
theorem C63_mul_assoc (a b c : MultiV ℝ) (ha : a.Genuine) (hb : b.Genuine) (hc : c.Genuine) (na : a.NoNegative)
    (nb : b.NoNegative) (nc : c.NoNegative) :
    ∃ ab bc r r', Val.mul (.multi a) (.multi b) = .ok ab ∧ Val.mul (.multi b) (.multi c) = .ok bc ∧
      Val.mul ab (.multi c) = .ok r ∧ Val.mul (.multi a) bc = .ok r' ∧ Val.eq r r' = true := by
  obtain ⟨x, ex, gx, nx, mx, wx, -⟩ := mul_noNegative a b ha hb na nb
  obtain ⟨y, ey, gy, ny, my, wy, -⟩ := mul_noNegative b c hb hc nb nc
  obtain ⟨r, r', e1, e2, h⟩ := C63_products_equal x c a y gx hc ha gy nx nc na ny
    (fun w hw => by
      have h1 := wx w hw
      have h2 := wy w hw
      simp only [net, wsum_append] at h1 h2 ⊢; linarith) _ siSize_coherent (by
      rw [mx _ siSize_coherent, my _ siSize_coherent]; ring)
  exact ⟨_, _, r, r', ex, ey, e1, e2, h⟩

/-- The order of factors in a numerator or a denominator does not matter: `(a*b)/c == (b*a)/c` and
`a/(b*c) == a/(c*b)`. -/
theorem C63_div_mul_comm (a b c : MultiV ℝ) (ha : a.Genuine) (hb : b.Genuine) (hc : c.Genuine) (na : a.NoNegative)
    (nb : b.NoNegative) (nc : c.NoNegative) (hv : c.value ≠ 0) (hvb : b.value ≠ 0) :
    (∃ ab ba r r', Val.mul (.multi a) (.multi b) = .ok ab ∧ Val.mul (.multi b) (.multi a) = .ok ba ∧
      Val.div ab (.multi c) = .ok r ∧ Val.div ba (.multi c) = .ok r' ∧ Val.eq r r' = true) ∧
    (∃ bc cb r r', Val.mul (.multi b) (.multi c) = .ok bc ∧ Val.mul (.multi c) (.multi b) = .ok cb ∧
      Val.div (.multi a) bc = .ok r ∧ Val.div (.multi a) cb = .ok r' ∧ Val.eq r r' = true) := by
  constructor
  · obtain ⟨x, ex, gx, nx, mx, wx, -⟩ := mul_noNegative a b ha hb na nb
    obtain ⟨y, ey, gy, ny, my, wy, -⟩ := mul_noNegative b a hb ha nb na
    obtain ⟨r, r', e1, e2, h⟩ := C63_quotients_equal x c y c gx hc gy hc nx nc ny nc hv hv
      (fun w hw => by
        have h1 := wx w hw
        have h2 := wy w hw
        simp only [net, wsum_append] at h1 h2 ⊢; linarith) _ siSize_coherent (by
        rw [mx _ siSize_coherent, my _ siSize_coherent, mul_comm])
    exact ⟨_, _, r, r', ex, ey, e1, e2, h⟩
  · obtain ⟨x, ex, gx, nx, mx, wx, zx⟩ := mul_noNegative b c hb hc nb nc
    obtain ⟨y, ey, gy, ny, my, wy, zy⟩ := mul_noNegative c b hc hb nc nb
    obtain ⟨r, r', e1, e2, h⟩ := C63_quotients_equal a x a y ha gx ha gy na nx na ny
      (fun h => by rcases zx.1 h with h | h <;> contradiction) (fun h => by rcases zy.1 h with h | h <;> contradiction)
      (fun w hw => by
        have h1 := wx w hw
        have h2 := wy w hw
        simp only [net, wsum_append] at h1 h2 ⊢; linarith) _ siSize_coherent (by
        rw [mx _ siSize_coherent, my _ siSize_coherent, mul_comm (b.mag _)])
    exact ⟨_, _, r, r', ex, ey, e1, e2, h⟩

/-- Multiplication distributes over the sum of quantities of the same class and units. -/
theorem C63_distrib (a b c : MultiV ℝ) (hcls : a.cls = b.cls) (ht : a.top = b.top) (hbo : a.bot = b.bot)
    (ha : a.Genuine) (hc : c.Genuine) :
    ∃ s r ac bc r', Val.add (.multi a) (.multi b) = .ok s ∧ Val.mul s (.multi c) = .ok r ∧
      Val.mul (.multi a) (.multi c) = .ok ac ∧ Val.mul (.multi b) (.multi c) = .ok bc ∧
      Val.add ac bc = .ok r' ∧ r = r' := by
  obtain ⟨t, bo, e, -⟩ := reduce_full true true (wellPrefixed_append ha.1 hc.1) (wellPrefixed_append ha.2 hc.2)
  generalize prefixProd (a.top ++ c.top) / prefixProd (a.bot ++ c.bot) = f at e
  refine ⟨.multi ⟨.multi, a.value + b.value, a.top, a.bot⟩,
    .multi ⟨.multi, (a.value + b.value) * c.value * f, t, bo⟩, .multi ⟨.multi, a.value * c.value * f, t, bo⟩,
    .multi ⟨.multi, b.value * c.value * f, t, bo⟩, .multi ⟨.multi, a.value * c.value * f + b.value * c.value * f, t, bo⟩, ?_, ?_, ?_, ?_, ?_, ?_⟩
  · simp only [Val.add, multiAdd, hcls, ht, hbo, and_self, if_true]
  · simp only [Val.mul, multiMul, multiMulMulti, e]
  · simp only [Val.mul, multiMul, multiMulMulti, e]
  · simp only [Val.mul, multiMul, multiMulMulti, ← ht, ← hbo, e]
  · simp only [Val.add, multiAdd, and_self, if_true]
  · simp only [Val.multi.injEq, MultiV.mk.injEq, and_true, true_and]; ring

/-- 3 kW·s/m² times 2 cm²/K and 2 cm²/K times 3 kW·s/m² satisfy the hypotheses. -/
example : (⟨.multi, 3, [⟨c!"kW", 1⟩, ⟨c!"s", 1⟩], [⟨c!"m", 2⟩]⟩ : MultiV ℝ).Genuine ∧
    (⟨.multi, 2, [⟨c!"cm", 2⟩], [⟨c!"K", 1⟩]⟩ : MultiV ℝ).Genuine ∧
    (⟨.multi, 3, [⟨c!"kW", 1⟩, ⟨c!"s", 1⟩], [⟨c!"m", 2⟩]⟩ : MultiV ℝ).NoNegative ∧
    (⟨.multi, 2, [⟨c!"cm", 2⟩], [⟨c!"K", 1⟩]⟩ : MultiV ℝ).NoNegative :=
  ⟨by decide, by decide, by constructor <;> simp [AllNonneg], by constructor <;> simp [AllNonneg]⟩

/-- The two orders give different lists, equal as sets. -/
example : Val.mul (.multi (⟨.multi, 3, [⟨c!"mol", 1⟩], [⟨c!"A", 2⟩]⟩ : MultiV ℚ)) (.multi ⟨.multi, 2, [⟨c!"K", 1⟩], [⟨c!"m", 1⟩]⟩) =
      .ok (.multi ⟨.multi, 6, [⟨c!"mol", 1⟩, ⟨c!"K", 1⟩], [⟨c!"A", 2⟩, ⟨c!"m", 1⟩]⟩) ∧
    Val.mul (.multi (⟨.multi, 2, [⟨c!"K", 1⟩], [⟨c!"m", 1⟩]⟩ : MultiV ℚ)) (.multi ⟨.multi, 3, [⟨c!"mol", 1⟩], [⟨c!"A", 2⟩]⟩) =
      .ok (.multi ⟨.multi, 6, [⟨c!"K", 1⟩, ⟨c!"mol", 1⟩], [⟨c!"m", 1⟩, ⟨c!"A", 2⟩]⟩) := by decide +kernel

/-- Negative exponents in a denominator are not moved to the numerator, so that equal quantities compare unequal: s/m^-2
times K against m²·s times K. -/
theorem C63_negative_false : ¬ ∀ (a b c d : MultiV ℝ), a.Genuine → b.Genuine → c.Genuine → d.Genuine →
    UnitsCancel (a.top ++ b.top ++ (c.bot ++ d.bot)) (a.bot ++ b.bot ++ (c.top ++ d.top)) →
    (∀ ρ, Coherent ρ → a.mag ρ * b.mag ρ = c.mag ρ * d.mag ρ) →
    ∃ r r', Val.mul (.multi a) (.multi b) = .ok r ∧ Val.mul (.multi c) (.multi d) = .ok r' ∧ Val.eq r r' = true := by
  intro h
  obtain ⟨r, r', e1, e2, h⟩ := h ⟨.multi, 1, [⟨c!"s", 1⟩], [⟨c!"m", -2⟩]⟩ ⟨.multi, 1, [⟨c!"K", 1⟩], []⟩
    ⟨.multi, 1, [⟨c!"m", 2⟩, ⟨c!"s", 1⟩], []⟩ ⟨.multi, 1, [⟨c!"K", 1⟩], []⟩ (by decide) (by decide) (by decide) (by decide)
    (fun w _ => by simp [net]) (fun ρ hρ => by
      simp only [MultiV.mag, mag, lsize, List.map_cons, List.map_nil, List.prod_cons, List.prod_nil]
      push_cast
      rw [Real.rpow_neg (hρ.pos _).le]
      have := (Real.rpow_pos_of_pos (hρ.pos c!"m") 2).ne'
      field_simp)
  have f1 : Val.mul (.multi (⟨.multi, 1, [⟨c!"s", 1⟩], [⟨c!"m", -2⟩]⟩ : MultiV ℝ)) (.multi ⟨.multi, 1, [⟨c!"K", 1⟩], []⟩) =
      .ok (.multi ⟨.multi, 1, [⟨c!"s", 1⟩, ⟨c!"K", 1⟩], [⟨c!"m", -2⟩]⟩) := by
    units_eval [Val.mul, multiMul, multiMulMulti]
  have f2 : Val.mul (.multi (⟨.multi, 1, [⟨c!"m", 2⟩, ⟨c!"s", 1⟩], []⟩ : MultiV ℝ)) (.multi ⟨.multi, 1, [⟨c!"K", 1⟩], []⟩) =
      .ok (.multi ⟨.multi, 1, [⟨c!"m", 2⟩, ⟨c!"s", 1⟩, ⟨c!"K", 1⟩], []⟩) := by
    units_eval [Val.mul, multiMul, multiMulMulti]
  rw [f1] at e1; rw [f2] at e2
  cases e1; cases e2
  have hs : setEq [⟨c!"s", 1⟩, ⟨c!"K", 1⟩] [⟨c!"m", 2⟩, ⟨c!"s", 1⟩, ⟨c!"K", 1⟩] = false := by decide +kernel
  simp only [Val.eq, multiEq, hs, Bool.and_false, Bool.false_and] at h
  cases h

end Verif
