import Verif.Props.ProductOrder

/-!
# C63: sums and differences of compound quantities with simple quantities as factors, and signs

Products and quotients with a simple quantity lose the prefix factor in some of the operators (C03, C04), but they lose the
same factor on both sides, so that the distributive laws hold all the same.
-/

namespace Verif

theorem packMul_add (v w : ℝ) (t b : UList) : Val.add (packMul v t b) (packMul w t b) = .ok (packMul (v + w) t b) := by
  unfold packMul
  split <;> simp [Val.add, unitAdd, multiAdd, isInstance, mkUnit, wrapUnit]

theorem packMul_sub (v w : ℝ) (t b : UList) : Val.sub (packMul v t b) (packMul w t b) = .ok (packMul (v - w) t b) := by
  unfold packMul
  split <;> simp [Val.sub, unitSub, multiSub, isInstance, mkUnit, wrapUnit]

theorem packMul_neg (v : ℝ) (t b : UList) : Val.neg (packMul v t b) = .ok (packMul (-v) t b) := by
  unfold packMul
  split <;> simp [Val.neg, unitNeg, multiNeg, mkUnit, wrapUnit]

theorem packDiv_neg (v : ℝ) (t b : UList) : Val.neg (packDiv v t b) = .ok (packDiv (-v) t b) := by
  unfold packDiv
  split <;> simp [Val.neg, unitNeg, multiNeg, mkUnit, wrapUnit]

/-- The product of a sum or difference with a simple quantity is the sum or difference of the products. -/
theorem C63_distrib_unit (a b : MultiV ℝ) (u : UnitV ℝ) (hcls : a.cls = b.cls) (ht : a.top = b.top) (hbo : a.bot = b.bot)
    (ha : a.Genuine) (hu : WellPrefixedList [⟨u.unit, u.exp⟩]) :
    ∃ s d au bu r r', Val.add (.multi a) (.multi b) = .ok s ∧ Val.sub (.multi a) (.multi b) = .ok d ∧
      Val.mul (.multi a) (.unit u) = .ok au ∧ Val.mul (.multi b) (.unit u) = .ok bu ∧
      Val.mul s (.unit u) = .ok r ∧ Val.add au bu = .ok r ∧ Val.mul d (.unit u) = .ok r' ∧ Val.sub au bu = .ok r' := by
  obtain ⟨t, bo, e, -⟩ := reduce_full true true (wellPrefixed_append ha.1 hu) ha.2
  generalize prefixProd (a.top ++ [⟨u.unit, u.exp⟩]) / prefixProd a.bot = f at e
  refine ⟨.multi ⟨.multi, a.value + b.value, a.top, a.bot⟩, .multi ⟨.multi, a.value - b.value, a.top, a.bot⟩,
    packMul (u.value * a.value) t bo, packMul (u.value * b.value) t bo, packMul (u.value * (a.value + b.value)) t bo,
    packMul (u.value * (a.value - b.value)) t bo, ?_, ?_, ?_, ?_, ?_, ?_, ?_, ?_⟩
  · simp only [Val.add, multiAdd, hcls, ht, hbo, and_self, if_true]
  · simp only [Val.sub, multiSub, ht, hbo, and_self, if_true]
  · simp only [Val.mul, multiMul, multiMulUnit, e]
  · simp only [Val.mul, multiMul, multiMulUnit, ← ht, ← hbo, e]
  · simp only [Val.mul, multiMul, multiMulUnit, e]
  · rw [packMul_add, mul_add]
  · simp only [Val.mul, multiMul, multiMulUnit, e]
  · rw [packMul_sub, mul_sub]

/-- The quotient of a sum or difference by a simple quantity is the sum or difference of the quotients. -/
theorem C63_div_distrib_unit (a b : MultiV ℝ) (u : UnitV ℝ) (hcls : a.cls = b.cls) (ht : a.top = b.top) (hbo : a.bot = b.bot)
    (ha : a.Genuine) (hu : WellPrefixedList [⟨u.unit, u.exp⟩]) (hv : u.value ≠ 0) :
    ∃ s d au bu r r', Val.add (.multi a) (.multi b) = .ok s ∧ Val.sub (.multi a) (.multi b) = .ok d ∧
      Val.div (.multi a) (.unit u) = .ok au ∧ Val.div (.multi b) (.unit u) = .ok bu ∧
      Val.div s (.unit u) = .ok r ∧ Val.add au bu = .ok r ∧ Val.div d (.unit u) = .ok r' ∧ Val.sub au bu = .ok r' := by
  obtain ⟨t, bo, e, -⟩ := reduce_full false true ha.1 (wellPrefixed_append ha.2 hu)
  generalize prefixProd a.top / prefixProd (a.bot ++ [⟨u.unit, u.exp⟩]) = f at e
  refine ⟨.multi ⟨.multi, a.value + b.value, a.top, a.bot⟩, .multi ⟨.multi, a.value - b.value, a.top, a.bot⟩,
    packDiv (a.value / u.value * f) t bo, packDiv (b.value / u.value * f) t bo,
    packDiv ((a.value + b.value) / u.value * f) t bo, packDiv ((a.value - b.value) / u.value * f) t bo,
    ?_, ?_, ?_, ?_, ?_, ?_, ?_, ?_⟩
  · simp only [Val.add, multiAdd, hcls, ht, hbo, and_self, if_true]
  · simp only [Val.sub, multiSub, ht, hbo, and_self, if_true]
  · simp only [Val.div, multiDiv, multiDivUnit, e, pyDiv_ne hv]
  · simp only [Val.div, multiDiv, multiDivUnit, ← ht, ← hbo, e, pyDiv_ne hv]
  · simp only [Val.div, multiDiv, multiDivUnit, e, pyDiv_ne hv]
  · rw [packDiv_add, add_div, add_mul]
  · simp only [Val.div, multiDiv, multiDivUnit, e, pyDiv_ne hv]
  · rw [packDiv_sub, sub_div, sub_mul]

/-- A sum or difference of simple quantities times or divided by a compound quantity is the sum or difference of the products
or quotients; `hs` and `hd`: the class accepts the sum and the difference. -/
theorem C63_unit_distrib (u v : UnitV ℝ) (m : MultiV ℝ) (s d : UnitV ℝ) (hs : Val.add (.unit u) (.unit v) = .ok (.unit s))
    (hd : Val.sub (.unit u) (.unit v) = .ok (.unit d)) (kc : '^' ∉ u.unit)
    (hm : m.Genuine) (hu : WellPrefixedList [⟨u.unit, u.exp⟩]) (hv : m.value ≠ 0) :
    ∃ um vm r r' uq vq q q', Val.mul (.unit u) (.multi m) = .ok um ∧ Val.mul (.unit v) (.multi m) = .ok vm ∧
      Val.mul (.unit s) (.multi m) = .ok r ∧ Val.add um vm = .ok r ∧
      Val.mul (.unit d) (.multi m) = .ok r' ∧ Val.sub um vm = .ok r' ∧
      Val.div (.unit u) (.multi m) = .ok uq ∧ Val.div (.unit v) (.multi m) = .ok vq ∧
      Val.div (.unit s) (.multi m) = .ok q ∧ Val.add uq vq = .ok q ∧
      Val.div (.unit d) (.multi m) = .ok q' ∧ Val.sub uq vq = .ok q' := by
  obtain ⟨t, bo, e, -⟩ := reduce_full true true (wellPrefixed_append hm.1 hu) hm.2
  generalize prefixProd (m.top ++ [⟨u.unit, u.exp⟩]) / prefixProd m.bot = f at e
  obtain ⟨t', bo', e', -⟩ := reduce_full true false (wellPrefixed_append hm.2 hu) hm.1
  generalize prefixProd (m.bot ++ [⟨u.unit, u.exp⟩]) / prefixProd m.top = f' at e'
  have key : u.unit = v.unit ∧ u.exp = v.exp ∧ s.unit = u.unit ∧ s.exp = u.exp ∧ s.value = u.value + v.value := by
    simp only [Val.add, unitAdd] at hs
    split_ifs at hs with h1 h2
    refine ⟨h2.1, h2.2, ?_⟩
    unfold mkUnit wrapUnit at hs
    cases hc : u.cls <;> simp only [hc, kc, if_false] at hs <;> (try split_ifs at hs) <;>
      (try simp only [Except.ok.injEq, Val.unit.injEq] at hs) <;> subst hs <;> exact ⟨rfl, rfl, rfl⟩
  have key' : d.unit = u.unit ∧ d.exp = u.exp ∧ d.value = u.value - v.value := by
    simp only [Val.sub, unitSub] at hd
    split_ifs at hd with h1 h2
    unfold mkUnit wrapUnit at hd
    cases hc : u.cls <;> simp only [hc, kc, if_false] at hd <;> (try split_ifs at hd) <;>
      (try simp only [Except.ok.injEq, Val.unit.injEq] at hd) <;> subst hd <;> exact ⟨rfl, rfl, rfl⟩
  obtain ⟨k1, k2, k3, k4, k5⟩ := key
  obtain ⟨j3, j4, j5⟩ := key'
  refine ⟨packMul (u.value * m.value) t bo, packMul (v.value * m.value) t bo, packMul ((u.value + v.value) * m.value) t bo,
    packMul ((u.value - v.value) * m.value) t bo, packDiv (u.value / m.value) t' bo', packDiv (v.value / m.value) t' bo',
    packDiv ((u.value + v.value) / m.value) t' bo', packDiv ((u.value - v.value) / m.value) t' bo',
    ?_, ?_, ?_, ?_, ?_, ?_, ?_, ?_, ?_, ?_, ?_, ?_⟩
  · simp only [Val.mul, unitMul, multiMulUnit, e]
  · simp only [Val.mul, unitMul, multiMulUnit, ← k1, ← k2, e]
  · simp only [Val.mul, unitMul, multiMulUnit, k3, k4, k5, e]
  · rw [packMul_add, add_mul]
  · simp only [Val.mul, unitMul, multiMulUnit, j3, j4, j5, e]
  · rw [packMul_sub, sub_mul]
  · simp only [Val.div, unitDiv, unitDivMulti, e', pyDiv_ne hv]
  · simp only [Val.div, unitDiv, unitDivMulti, ← k1, ← k2, e', pyDiv_ne hv]
  · simp only [Val.div, unitDiv, unitDivMulti, k3, k4, k5, e', pyDiv_ne hv]
  · rw [packDiv_add, add_div]
  · simp only [Val.div, unitDiv, unitDivMulti, j3, j4, j5, e', pyDiv_ne hv]
  · rw [packDiv_sub, sub_div]

/-- 6 kJ/hr and 4 kJ/hr, whose sum and difference are multiplied by 2 hr and divided by 2 kg. -/
example : (⟨.multi, 6, [⟨c!"kJ", 1⟩], [⟨c!"hr", 1⟩]⟩ : MultiV ℝ).Genuine ∧ WellPrefixedList [⟨c!"hr", 1⟩] ∧
    WellPrefixedList [⟨c!"kg", 1⟩] ∧
    Val.mul (.multi (⟨.multi, 10, [⟨c!"kJ", 1⟩], [⟨c!"hr", 1⟩]⟩ : MultiV ℚ)) (.unit ⟨.time, 2, c!"hr", 1⟩) =
      .ok (.unit ⟨.unit, 20, c!"J", 1⟩) := by
  refine ⟨by decide, by decide, by decide, by decide +kernel⟩

/-- 3 m and 1 m added, subtracted, and multiplied with a compound quantity. -/
example : Val.add (.unit (⟨.length, 3, c!"m", 1⟩ : UnitV ℚ)) (.unit ⟨.length, 1, c!"m", 1⟩) = .ok (.unit ⟨.length, 4, c!"m", 1⟩) ∧
    Val.sub (.unit (⟨.length, 3, c!"m", 1⟩ : UnitV ℚ)) (.unit ⟨.length, 1, c!"m", 1⟩) = .ok (.unit ⟨.length, 2, c!"m", 1⟩) ∧
    Val.mul (.unit (⟨.length, 4, c!"m", 1⟩ : UnitV ℚ)) (.multi ⟨.multi, 2, [⟨c!"N", 1⟩], []⟩) =
      .ok (.multi ⟨.multi, 8, [⟨c!"N", 1⟩, ⟨c!"m", 1⟩], []⟩) := by
  decide +kernel

/-- A sign can be taken out of products and quotients of compound quantities and of compound with simple quantities. -/
theorem C63_neg (a c : MultiV ℝ) (u : UnitV ℝ) (ha : a.Genuine) (hc : c.Genuine) (hu : WellPrefixedList [⟨u.unit, u.exp⟩])
    (hv : c.value ≠ 0) (hw : u.value ≠ 0) :
    ∃ n p q x y, Val.neg (.multi a) = .ok n ∧
      Val.mul (.multi a) (.multi c) = .ok p ∧ Val.neg p = Val.mul n (.multi c) ∧
      Val.div (.multi a) (.multi c) = .ok q ∧ Val.neg q = Val.div n (.multi c) ∧
      Val.mul (.multi a) (.unit u) = .ok x ∧ Val.neg x = Val.mul n (.unit u) ∧
      Val.div (.multi a) (.unit u) = .ok y ∧ Val.neg y = Val.div n (.unit u) := by
  obtain ⟨t1, b1, e1, -⟩ := reduce_full true true (wellPrefixed_append ha.1 hc.1) (wellPrefixed_append ha.2 hc.2)
  obtain ⟨t2, b2, e2, -⟩ := reduce_full true true (wellPrefixed_append ha.1 hc.2) (wellPrefixed_append ha.2 hc.1)
  obtain ⟨t3, b3, e3, -⟩ := reduce_full true true (wellPrefixed_append ha.1 hu) ha.2
  obtain ⟨t4, b4, e4, -⟩ := reduce_full false true ha.1 (wellPrefixed_append ha.2 hu)
  have hq : ∃ q, Val.div (.multi a) (.multi c) = .ok q ∧ Val.neg q = Val.div (.multi (multiNeg a)) (.multi c) := by
    by_cases hsame : a.top = c.top ∧ a.bot = c.bot
    · refine ⟨.num (a.value / c.value), ?_, ?_⟩
      · simp only [Val.div, multiDiv, multiDivMulti, hsame, and_self, if_true, pyDiv_ne hv]
      · simp only [Val.div, multiDiv, multiDivMulti, multiNeg, hsame, and_self, if_true, pyDiv_ne hv, Val.neg, neg_div]
    · refine ⟨packDiv (a.value / c.value * (prefixProd (a.top ++ c.bot) / prefixProd (a.bot ++ c.top))) t2 b2, ?_, ?_⟩
      · simp only [Val.div, multiDiv, multiDivMulti, hsame, if_false, e2, pyDiv_ne hv]
      · simp only [packDiv_neg, Val.div, multiDiv, multiDivMulti, multiNeg, hsame, if_false, e2, pyDiv_ne hv, neg_div, neg_mul]
  obtain ⟨q, q1, q2⟩ := hq
  refine ⟨.multi (multiNeg a), .multi ⟨.multi, a.value * c.value * (prefixProd (a.top ++ c.top) / prefixProd (a.bot ++ c.bot)), t1, b1⟩,
    q, packMul (u.value * a.value) t3 b3, packDiv (a.value / u.value * (prefixProd a.top / prefixProd (a.bot ++ [⟨u.unit, u.exp⟩]))) t4 b4,
    rfl, ?_, ?_, q1, q2, ?_, ?_, ?_, ?_⟩
  · simp only [Val.mul, multiMul, multiMulMulti, e1]
  · simp only [Val.mul, multiMul, multiMulMulti, multiNeg, Val.neg, e1, neg_mul]
  · simp only [Val.mul, multiMul, multiMulUnit, e3]
  · simp only [packMul_neg, Val.mul, multiMul, multiMulUnit, multiNeg, e3, mul_neg]
  · simp only [Val.div, multiDiv, multiDivUnit, e4, pyDiv_ne hw]
  · simp only [packDiv_neg, Val.div, multiDiv, multiDivUnit, multiNeg, e4, pyDiv_ne hw, neg_div, neg_mul]

/-- Minus 3 kW·s/m² times 2 cm²/K. -/
example : Val.mul (.multi (⟨.multi, -3, [⟨c!"kW", 1⟩, ⟨c!"s", 1⟩], [⟨c!"m", 2⟩]⟩ : MultiV ℚ))
      (.multi ⟨.multi, 2, [⟨c!"cm", 2⟩], [⟨c!"K", 1⟩]⟩) = .ok (.multi ⟨.multi, -(3 / 5), [⟨c!"J", 1⟩], [⟨c!"K", 1⟩]⟩) := by
  decide +kernel

/-- A common factor cancels: `(a*c)/(b*c) == a/b`, and `(a*b)/b == (a*c)/c`. -/
theorem C63_cancel_factor (a b c : MultiV ℝ) (ha : a.Genuine) (hb : b.Genuine) (hc : c.Genuine) (na : a.NoNegative)
    (nb : b.NoNegative) (nc : c.NoNegative) (hvb : b.value ≠ 0) (hvc : c.value ≠ 0) :
    (∃ ac bc r r', Val.mul (.multi a) (.multi c) = .ok ac ∧ Val.mul (.multi b) (.multi c) = .ok bc ∧
      Val.div ac bc = .ok r ∧ Val.div (.multi a) (.multi b) = .ok r' ∧ Val.eq r r' = true) ∧
    (∃ ab ac r r', Val.mul (.multi a) (.multi b) = .ok ab ∧ Val.mul (.multi a) (.multi c) = .ok ac ∧
      Val.div ab (.multi b) = .ok r ∧ Val.div ac (.multi c) = .ok r' ∧ Val.eq r r' = true) := by
  obtain ⟨x, ex, gx, nx, mx, wx, -⟩ := mul_noNegative a c ha hc na nc
  have mne : ∀ q : MultiV ℝ, q.value ≠ 0 → q.mag (fun s => ((siSize s : ℚ) : ℝ)) ≠ 0 := fun q hq => by
    simp only [MultiV.mag, mag]
    have h1 := (lsize_pos siSize_coherent.pos q.top).ne'
    have h2 := (lsize_pos siSize_coherent.pos q.bot).ne'
    exact mul_ne_zero hq (div_ne_zero h1 h2)
  constructor
  · obtain ⟨y, ey, gy, ny, my, wy, zy⟩ := mul_noNegative b c hb hc nb nc
    obtain ⟨r, r', e1, e2, h⟩ := C63_quotients_equal x y a b gx gy ha hb nx ny na nb
      (fun h => by rcases zy.1 h with h | h <;> contradiction) hvb
      (fun w hw => by
        have h1 := wx w hw
        have h2 := wy w hw
        simp only [net, wsum_append] at h1 h2 ⊢; linarith) _ siSize_coherent (by
        rw [mx _ siSize_coherent, my _ siSize_coherent, mul_div_mul_right _ _ (mne c hvc)])
    exact ⟨_, _, r, r', ex, ey, e1, e2, h⟩
  · obtain ⟨y, ey, gy, ny, my, wy, -⟩ := mul_noNegative a b ha hb na nb
    obtain ⟨r, r', e1, e2, h⟩ := C63_quotients_equal y b x c gy hb gx hc ny nb nx nc hvb hvc
      (fun w hw => by
        have h1 := wx w hw
        have h2 := wy w hw
        simp only [net, wsum_append] at h1 h2 ⊢; linarith) _ siSize_coherent (by
        rw [mx _ siSize_coherent, my _ siSize_coherent, mul_div_cancel_right₀ _ (mne b hvb),
          mul_div_cancel_right₀ _ (mne c hvc)])
    exact ⟨_, _, r, r', ey, ex, e1, e2, h⟩

/-- 6 kJ/hr over 2 W is 3000 s/hr; with both multiplied by 5 cm²/K it still is. -/
example : Val.mul (.multi (⟨.multi, 6, [⟨c!"kJ", 1⟩], [⟨c!"hr", 1⟩]⟩ : MultiV ℚ)) (.multi ⟨.multi, 5, [⟨c!"cm", 2⟩], [⟨c!"K", 1⟩]⟩) =
      .ok (.multi ⟨.multi, 3, [⟨c!"m", 2⟩, ⟨c!"J", 1⟩], [⟨c!"hr", 1⟩, ⟨c!"K", 1⟩]⟩) ∧
    Val.mul (.multi (⟨.multi, 2, [⟨c!"W", 1⟩], []⟩ : MultiV ℚ)) (.multi ⟨.multi, 5, [⟨c!"cm", 2⟩], [⟨c!"K", 1⟩]⟩) =
      .ok (.multi ⟨.multi, 1 / 1000, [⟨c!"m", 2⟩, ⟨c!"W", 1⟩], [⟨c!"K", 1⟩]⟩) := by
  decide +kernel

end Verif
