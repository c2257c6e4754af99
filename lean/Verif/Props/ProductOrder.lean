import Verif.Props.CanonicalSigned
import Verif.Props.PowerLaws

/-!
# C63, C109: products of any number of factors

`t = x; for y in ys: t = t * y` gives quantities that are equal for `==` whenever the factors multiply to the same quantity,
whatever their number, their order and the units they are written in.
-/

namespace Verif

theorem timesAll_concat {K : Type} [Field K] [LinearOrder K] [PyPow K] (x : Val K) (l : List (Val K)) (y t : Val K)
    (h : timesAll x l = .ok t) : timesAll x (l ++ [y]) = t.mul y := by
  induction l generalizing x with
  | nil =>
    simp only [timesAll, Except.ok.injEq] at h
    subst h
    simp only [List.nil_append, timesAll]
    cases x.mul y <;> rfl
  | cons z l ih =>
    simp only [timesAll, List.cons_append] at h ⊢
    split at h
    · cases h
    next e => exact ih _ h

/-- The product of any number of factors with negative exponents only above the line. -/
theorem timesAll_signed (m : MultiV ℝ) (ms : List (MultiV ℝ)) (hm : m.Genuine) (nm : m.SignedAbove)
    (h : ∀ o ∈ ms, o.Genuine ∧ o.SignedAbove) :
    ∃ r : MultiV ℝ, timesAll (.multi m) (ms.map .multi) = .ok (.multi r) ∧ r.Genuine ∧ r.SignedAbove ∧
      (∀ ρ, Coherent ρ → r.mag ρ = ((m :: ms).map fun o => o.mag ρ).prod) ∧
      ∀ w, FormalWeight w → net w r.top r.bot = ((m :: ms).map fun o => net w o.top o.bot).sum := by
  induction ms generalizing m with
  | nil => exact ⟨m, rfl, hm, nm, fun ρ _ => by simp, fun w _ => by simp⟩
  | cons o ms ih =>
    obtain ⟨g, n⟩ := h o (List.mem_cons_self ..)
    obtain ⟨c, e, gc, nc, mc, wc, -⟩ := mul_signed m o hm g nm n
    obtain ⟨r, er, gr, nr, mr, wr⟩ := ih c gc nc.above fun o' ho' => h o' (List.mem_cons_of_mem _ ho')
    refine ⟨r, ?_, gr, nr, fun ρ hρ => ?_, fun w hw => ?_⟩
    · simp only [List.map_cons, timesAll, e]; exact er
    · rw [mr ρ hρ]; simp only [List.map_cons, List.prod_cons, mc ρ hρ]; ring
    · rw [wr w hw]; simp only [List.map_cons, List.sum_cons, wc w hw]; ring

/-- Products of two or more factors that stand for the same quantity compare equal. -/
theorem C63_any_products_equal (m o : MultiV ℝ) (ms os : List (MultiV ℝ)) (hms : ms ≠ []) (hos : os ≠ [])
    (h : ∀ x ∈ m :: ms, x.Genuine ∧ x.SignedAbove) (h' : ∀ x ∈ o :: os, x.Genuine ∧ x.SignedAbove)
    (hu : ∀ w, FormalWeight w → ((m :: ms).map fun x => net w x.top x.bot).sum = ((o :: os).map fun x => net w x.top x.bot).sum)
    (ρ : Sym → ℝ) (hρ : Coherent ρ) (hm : ((m :: ms).map fun x => x.mag ρ).prod = ((o :: os).map fun x => x.mag ρ).prod) :
    ∃ r s, timesAll (.multi m) (ms.map .multi) = .ok r ∧ timesAll (.multi o) (os.map .multi) = .ok s ∧ Val.eq r s = true := by
  obtain ⟨ms, l, rfl⟩ := (List.eq_nil_or_concat' ms).resolve_left hms
  obtain ⟨os, l', rfl⟩ := (List.eq_nil_or_concat' os).resolve_left hos
  have hl := h l (by simp)
  have hl' := h' l' (by simp)
  obtain ⟨x, ex, gx, nx, mx, wx⟩ := timesAll_signed m ms (h m (by simp)).1 (h m (by simp)).2 fun y hy => h y (by simp [hy])
  obtain ⟨y, ey, gy, ny, my, wy⟩ := timesAll_signed o os (h' o (by simp)).1 (h' o (by simp)).2 fun z hz => h' z (by simp [hz])
  obtain ⟨r, s, e1, e2, hrs⟩ := C63_products_equal_signed x l y l' gx hl.1 gy hl'.1 nx hl.2 ny hl'.2
    (fun w hw => by
      have h1 := wx w hw
      have h2 := wy w hw
      have h3 := hu w hw
      simp only [List.map_cons, List.map_append, List.map_nil, List.sum_cons, List.sum_append, List.sum_nil] at h1 h2 h3
      simp only [net, wsum_append] at h1 h2 h3 ⊢; linarith) ρ hρ (by
      rw [mx ρ hρ, my ρ hρ]
      simp only [List.map_cons, List.map_append, List.map_nil, List.prod_cons, List.prod_append, List.prod_nil, mul_one] at hm ⊢
      linarith)
  refine ⟨r, s, ?_, ?_, hrs⟩
  · rw [List.map_append, List.map_cons, List.map_nil, timesAll_concat _ _ _ _ ex, e1]
  · rw [List.map_append, List.map_cons, List.map_nil, timesAll_concat _ _ _ _ ey, e2]

/-- The order of any number of factors does not matter. -/
theorem C63_product_order (m o : MultiV ℝ) (ms os : List (MultiV ℝ)) (h : ∀ x ∈ m :: ms, x.Genuine ∧ x.SignedAbove)
    (hp : (m :: ms).Perm (o :: os)) :
    ∃ r s, timesAll (.multi m) (ms.map .multi) = .ok r ∧ timesAll (.multi o) (os.map .multi) = .ok s ∧ Val.eq r s = true := by
  have hlen := hp.length_eq
  simp only [List.length_cons, Nat.add_right_cancel_iff] at hlen
  by_cases h0 : ms = []
  · subst h0
    have : os = [] := List.length_eq_zero_iff.1 (by simpa using hlen.symm)
    subst this
    obtain rfl : m = o := by simpa using hp
    refine ⟨.multi m, .multi m, rfl, rfl, ?_⟩
    simp [Val.eq, multiEq, setEq]
  · have h1 : os ≠ [] := fun e => h0 (List.length_eq_zero_iff.1 (by simpa [e] using hlen))
    exact C63_any_products_equal m o ms os h0 h1 h (fun x hx => h x (hp.mem_iff.2 hx))
      (fun w _ => (hp.map _).sum_eq) _ siSize_coherent (hp.map _).prod_eq

/-- Three factors in two orders; the quantities satisfy the conditions, and the lists come out in different orders. -/
example : (∀ x ∈ [(⟨.multi, 3, [⟨c!"mol", 1⟩], [⟨c!"A", 2⟩]⟩ : MultiV ℝ), ⟨.multi, 2, [⟨c!"kW", 1⟩], [⟨c!"m", 1⟩]⟩,
      ⟨.multi, 5, [⟨c!"K", -1⟩, ⟨c!"hr", -2⟩], []⟩], x.Genuine ∧ x.SignedAbove) ∧
    timesAll (K := ℚ) (.multi ⟨.multi, 3, [⟨c!"mol", 1⟩], [⟨c!"A", 2⟩]⟩) [.multi ⟨.multi, 2, [⟨c!"K", 1⟩], [⟨c!"m", 1⟩]⟩,
      .multi ⟨.multi, 5, [⟨c!"hr", -2⟩], []⟩] =
      .ok (.multi ⟨.multi, 30, [⟨c!"mol", 1⟩, ⟨c!"K", 1⟩], [⟨c!"hr", 2⟩, ⟨c!"A", 2⟩, ⟨c!"m", 1⟩]⟩) ∧
    timesAll (K := ℚ) (.multi ⟨.multi, 5, [⟨c!"hr", -2⟩], []⟩) [.multi ⟨.multi, 2, [⟨c!"K", 1⟩], [⟨c!"m", 1⟩]⟩,
      .multi ⟨.multi, 3, [⟨c!"mol", 1⟩], [⟨c!"A", 2⟩]⟩] =
      .ok (.multi ⟨.multi, 30, [⟨c!"K", 1⟩, ⟨c!"mol", 1⟩], [⟨c!"hr", 2⟩, ⟨c!"m", 1⟩, ⟨c!"A", 2⟩]⟩) := by
  refine ⟨?_, by decide +kernel, by decide +kernel⟩
  intro x hx
  simp only [List.mem_cons, List.not_mem_nil, or_false] at hx
  rcases hx with rfl | rfl | rfl
  · exact ⟨by decide, by unfold SignedList; decide +kernel, by simp [AllNonneg]⟩
  · exact ⟨by decide, by unfold SignedList; decide +kernel, by simp [AllNonneg]⟩
  · exact ⟨by decide, by unfold SignedList; decide +kernel, by simp [AllNonneg]⟩

/-! ## Powers as factors -/

theorem stemOf_derived : ∀ s ∈ derivedNames, stemOf s = s := by decide +kernel

/-- Powers with exponents that are not negative keep negative exponents out of the denominator. -/
theorem reducePow_signed {top bot t b : UList} {e : ℚ} (he : 0 ≤ e) (n1 : SignedList top) (n2 : AllNonneg bot)
    (h : reducePow (top.map (·.pow e)) (bot.map (·.pow e)) = .ok (t, b)) : AllNonneg t ∧ AllNonneg b := by
  have m1 : TopOk (top.map (·.pow e)) := by
    intro v hv
    obtain ⟨u, hu, rfl⟩ := List.mem_map.1 hv
    rcases n1 u hu with h0 | h0
    · exact .inl (mul_nonneg h0 he)
    · exact .inr fun hd => h0 (by rw [stemOf_derived u.unit hd]; exact hd)
  have m2 : AllNonneg (bot.map (·.pow e)) := by
    intro v hv
    obtain ⟨u, hu, rfl⟩ := List.mem_map.1 hv
    exact mul_nonneg (n2 u hu) he
  obtain ⟨t1, b1, e1⟩ := deconstructUnits_ok (top.map (·.pow e)) (bot.map (·.pow e))
  obtain ⟨k1, k2⟩ := topOk_deconLoop _ m1 m2 e1
  obtain ⟨c1, c2⟩ := cancelUnits_nonneg (combineUnits t1) (combineUnits_nonneg k2)
  simp only [reducePow, e1] at h
  exact simplifyUnits_nonneg c1 c2 h

/-- The power with a natural exponent of a quantity with negative exponents only above the line. -/
theorem pow_signed (m : MultiV ℝ) (hm : m.Genuine) (nm : m.SignedAbove) (n : ℕ) :
    ∃ p : MultiV ℝ, Val.pow (.multi m) (n : ℚ) = .ok (.multi p) ∧ p.Genuine ∧ p.NoNegative ∧
      (∀ ρ, Coherent ρ → p.mag ρ = m.mag ρ ^ n) ∧
      ∀ w, FormalWeight w → net w p.top p.bot = n * net w m.top m.bot := by
  obtain ⟨p, e, h⟩ := C07_pow_multi_int m (n : ℤ) (.inr (by positivity))
  have e' : Val.pow (.multi m) (n : ℚ) = .ok (.multi p) := by exact_mod_cast e
  obtain ⟨t, b, er, -, hn⟩ := reducePow_spec (m.top.map (·.pow (n : ℚ))) (m.bot.map (·.pow (n : ℚ)))
  have hl : p.top = t ∧ p.bot = b := by
    simp only [Val.pow, multiPow, er] at e'
    split at e'
    · cases e'
    · cases e'; exact ⟨rfl, rfl⟩
  refine ⟨p, e', (pow_keeps (x := .multi m) (r := .multi p) hm e').1, ?_, fun ρ hρ => by rw [h ρ hρ, zpow_natCast], fun w hw => ?_⟩
  · unfold MultiV.NoNegative
    rw [hl.1, hl.2]
    exact reducePow_signed (Nat.cast_nonneg n) nm.1 nm.2 er
  · rw [hl.1, hl.2, hn w hw.toDerivedLaws]
    simp only [net, wsum_map_pow, smul_eq_mul]; ring

/-- A power among the factors of a product is as good as the repeated factor: `m**(n+1) * o == m*m*…*m*o`.  (On their own
the two are not `==`, since a power keeps the prefixes: `C109_compound_equal_false`.) -/
theorem C109_power_factor (m o : MultiV ℝ) (hm : m.Genuine) (ho : o.Genuine) (nm : m.SignedAbove) (no : o.SignedAbove)
    (n : ℕ) :
    ∃ p r s, Val.pow (.multi m) ((n + 1 : ℕ) : ℚ) = .ok p ∧ Val.mul p (.multi o) = .ok r ∧
      timesAll (.multi m) ((List.replicate n m ++ [o]).map .multi) = .ok s ∧ Val.eq r s = true := by
  obtain ⟨p, e, gp, np, mp, wp⟩ := pow_signed m hm nm (n + 1)
  obtain ⟨r, s, e1, e2, h⟩ := C63_any_products_equal p m [o] (List.replicate n m ++ [o]) (by simp) (by simp)
    (by
      intro x hx
      simp only [List.mem_cons, List.not_mem_nil, or_false] at hx
      rcases hx with rfl | rfl
      · exact ⟨gp, np.above⟩
      · exact ⟨ho, no⟩)
    (by
      intro x hx
      simp only [List.mem_cons, List.mem_append, List.mem_replicate, List.not_mem_nil, or_false] at hx
      rcases hx with rfl | ⟨-, rfl⟩ | rfl
      · exact ⟨hm, nm⟩
      · exact ⟨hm, nm⟩
      · exact ⟨ho, no⟩)
    (fun w hw => by
      have := wp w hw
      push_cast at this
      simp only [List.map_cons, List.map_append, List.map_nil, List.map_replicate, List.sum_cons, List.sum_append,
        List.sum_nil, List.sum_replicate, nsmul_eq_mul, this]
      ring) _ siSize_coherent (by
      simp only [List.map_cons, List.map_append, List.map_nil, List.map_replicate, List.prod_cons, List.prod_append,
        List.prod_nil, List.prod_replicate, mp _ siSize_coherent]
      ring)
  refine ⟨.multi p, r, s, e, ?_, e2, h⟩
  simp only [List.map_cons, List.map_nil, timesAll] at e1
  cases hmul : Val.mul (.multi p) (.multi o) with
  | error er => rw [hmul] at e1; cases e1
  | ok v => rw [hmul] at e1; exact e1

/-- `(m*o)**n * q == m**n * o**n * q`. -/
theorem C109_product_pow_factor (m o q : MultiV ℝ) (hm : m.Genuine) (ho : o.Genuine) (hq : q.Genuine) (nm : m.SignedAbove)
    (no : o.SignedAbove) (nq : q.SignedAbove) (n : ℕ) :
    ∃ c cn mn on r x s, Val.mul (.multi m) (.multi o) = .ok c ∧ Val.pow c (n : ℚ) = .ok cn ∧
      Val.pow (.multi m) (n : ℚ) = .ok mn ∧ Val.pow (.multi o) (n : ℚ) = .ok on ∧ Val.mul cn (.multi q) = .ok r ∧
      Val.mul mn on = .ok x ∧ Val.mul x (.multi q) = .ok s ∧ Val.eq r s = true := by
  obtain ⟨c, ec, gc, nc, mc, wc, -⟩ := mul_signed m o hm ho nm no
  obtain ⟨cn, e1, g1, n1, m1, w1⟩ := pow_signed c gc nc.above n
  obtain ⟨mn, e2, g2, n2, m2, w2⟩ := pow_signed m hm nm n
  obtain ⟨on, e3, g3, n3, m3, w3⟩ := pow_signed o ho no n
  obtain ⟨x, ex, gx, nx, mx, wx, -⟩ := mul_signed mn on g2 g3 n2.above n3.above
  obtain ⟨r, s, h1, h2, h⟩ := C63_products_equal_signed cn q x q g1 hq gx hq n1.above nq nx.above nq
    (fun w hw => by
      have k1 := w1 w hw
      have k2 := wx w hw
      rw [wc w hw] at k1
      rw [w2 w hw, w3 w hw] at k2
      have k3 : net w cn.top cn.bot = net w x.top x.bot := by rw [k1, k2]; ring
      simp only [net, wsum_append] at k3 ⊢; linarith) _ siSize_coherent (by
      rw [m1 _ siSize_coherent, mx _ siSize_coherent, m2 _ siSize_coherent, m3 _ siSize_coherent, mc _ siSize_coherent, mul_pow])
  exact ⟨_, _, _, _, _, _, _, ec, e1, e2, e3, h1, ex, h2, h⟩

/-- (2 km/s)² times 3 s^-1 against 2 km/s times 2 km/s times 3 s^-1, computed. -/
example : Val.pow (.multi (⟨.multi, 2, [⟨c!"km", 1⟩], [⟨c!"s", 1⟩]⟩ : MultiV ℚ)) 2 =
      .ok (.multi ⟨.multi, 4, [⟨c!"km", 2⟩], [⟨c!"s", 2⟩]⟩) ∧
    Val.mul (.multi (⟨.multi, 4, [⟨c!"km", 2⟩], [⟨c!"s", 2⟩]⟩ : MultiV ℚ)) (.multi ⟨.multi, 3, [⟨c!"s", -1⟩], []⟩) =
      timesAll (.multi ⟨.multi, 2, [⟨c!"km", 1⟩], [⟨c!"s", 1⟩]⟩) [.multi ⟨.multi, 2, [⟨c!"km", 1⟩], [⟨c!"s", 1⟩]⟩,
        .multi ⟨.multi, 3, [⟨c!"s", -1⟩], []⟩] := by
  decide +kernel

/-! ## Repeated division -/

/-- A quotient that comes out compound has no negative exponents. -/
theorem div_signed (a b x : MultiV ℝ) (ha : a.Genuine) (hb : b.Genuine) (na : a.SignedAbove) (nb : b.SignedBelow)
    (hv : b.value ≠ 0) (h : Val.div (.multi a) (.multi b) = .ok (.multi x)) :
    x.Genuine ∧ x.NoNegative ∧ (∀ ρ, Coherent ρ → x.mag ρ = a.mag ρ / b.mag ρ) ∧
      ∀ w, FormalWeight w → net w x.top x.bot = net w a.top a.bot - net w b.top b.bot := by
  have w1 := wellPrefixed_append ha.1 hb.2
  have w2 := wellPrefixed_append ha.2 hb.1
  obtain ⟨t, bo, e, -, u1, u2, hm⟩ := reduce_full true true w1 w2
  have hs : ¬ (a.top = b.top ∧ a.bot = b.bot) := by
    intro hs
    simp only [Val.div, multiDiv, multiDivMulti, hs, and_self, if_true, pyDiv_ne hv] at h
    cases h
  simp only [Val.div, multiDiv, multiDivMulti, hs, if_false, e, pyDiv_ne hv, Except.ok.injEq] at h
  have hx : x = ⟨.multi, a.value / b.value * (prefixProd (a.top ++ b.bot) / prefixProd (a.bot ++ b.top)), t, bo⟩ := by
    unfold packDiv at h
    split at h <;> simp only [reduceCtorEq, Val.multi.injEq] at h
    exact h.symm
  subst hx
  refine ⟨⟨u1.well, u2.well⟩, reduce_signed_nonneg w1 w2 (na.1.append nb.2) (na.2.append nb.1) e, fun ρ hρ => ?_, fun w hw => ?_⟩
  · simp only [MultiV.mag]
    rw [hm ρ hρ]
    simp only [mag, lsize_append]
    have h1 := (lsize_pos hρ.pos a.bot).ne'
    have h2 := (lsize_pos hρ.pos b.top).ne'
    have h3 := (lsize_pos hρ.pos b.bot).ne'
    have h4 := (lsize_pos hρ.pos a.top).ne'
    field_simp
  · have := reduce_weight true true w1 w2 e w hw
    simp only [net, wsum_append] at this ⊢; linarith

/-- `a/b/c == a/(b*c)`, if `a/b` comes out compound.  Missing: `a/b` a simple quantity or a number, where the second
division is another operation (`C63_div_div_false`). -/
theorem C63_div_div_partial (a b c x : MultiV ℝ) (ha : a.Genuine) (hb : b.Genuine) (hc : c.Genuine) (na : a.SignedAbove)
    (nb : b.NoNegative) (nc : c.NoNegative) (hvb : b.value ≠ 0) (hvc : c.value ≠ 0)
    (h : Val.div (.multi a) (.multi b) = .ok (.multi x)) :
    ∃ bc r s, Val.mul (.multi b) (.multi c) = .ok bc ∧ Val.div (.multi x) (.multi c) = .ok r ∧
      Val.div (.multi a) bc = .ok s ∧ Val.eq r s = true := by
  obtain ⟨gx, nx, mx, wx⟩ := div_signed a b x ha hb na nb.below hvb h
  obtain ⟨y, ey, gy, ny, my, wy, zy⟩ := mul_signed b c hb hc nb.above nc.above
  obtain ⟨r, s, e1, e2, hrs⟩ := C63_quotients_equal_signed x c a y gx hc ha gy nx.above nc.below na ny.below hvc
    (fun h0 => (zy.1 h0).elim hvb hvc)
    (fun w hw => by
      have h1 := wx w hw
      have h2 := wy w hw
      simp only [net, wsum_append] at h1 h2 ⊢; linarith) _ siSize_coherent (by
      rw [mx _ siSize_coherent, my _ siSize_coherent, div_div])
  exact ⟨_, r, s, ey, e1, e2, hrs⟩

/-- 6 m·K divided by 2 K is the simple quantity 3 m, and 3 m divided by 3 km·s is 1 s^-1 instead of 0.001 s^-1 (C04), which
6 m·K divided by the product is. -/
theorem C63_div_div_false : ¬ ∀ (a b c : MultiV ℚ) (x bc r s : Val ℚ), a.Genuine → b.Genuine → c.Genuine → a.NoNegative →
    b.NoNegative → c.NoNegative → Val.div (.multi a) (.multi b) = .ok x → Val.mul (.multi b) (.multi c) = .ok bc →
    Val.div x (.multi c) = .ok r → Val.div (.multi a) bc = .ok s → Val.eq r s = true := by
  intro h
  have := h ⟨.multi, 6, [⟨c!"m", 1⟩, ⟨c!"K", 1⟩], []⟩ ⟨.multi, 2, [⟨c!"K", 1⟩], []⟩ ⟨.multi, 3, [⟨c!"km", 1⟩, ⟨c!"s", 1⟩], []⟩
    (.unit ⟨.unit, 3, c!"m", 1⟩) (.multi ⟨.multi, 6000, [⟨c!"K", 1⟩, ⟨c!"m", 1⟩, ⟨c!"s", 1⟩], []⟩) (.unit ⟨.unit, 1, c!"s", -1⟩)
    (.unit ⟨.unit, 1 / 1000, c!"s", -1⟩) (by decide) (by decide) (by decide)
    (by constructor <;> simp [AllNonneg]) (by constructor <;> simp [AllNonneg]) (by constructor <;> simp [AllNonneg])
    (by decide +kernel) (by decide +kernel) (by decide +kernel) (by decide +kernel)
  exact absurd this (by decide +kernel)

/-- A quotient that comes out compound: 6 kJ/hr divided by 2 ft³, and again by 3 K. -/
example : ∃ x : MultiV ℚ, Val.div (.multi ⟨.multi, 6, [⟨c!"kJ", 1⟩], [⟨c!"hr", 1⟩]⟩) (.multi ⟨.multi, 2, [⟨c!"ft", 3⟩], []⟩) =
      .ok (.multi x) ∧ Val.div (.multi x) (.multi ⟨.multi, 3, [⟨c!"K", 1⟩], []⟩) =
      .ok (.multi ⟨.multi, 1000, [⟨c!"J", 1⟩], [⟨c!"hr", 1⟩, ⟨c!"ft", 3⟩, ⟨c!"K", 1⟩]⟩) :=
  ⟨⟨.multi, 3000, [⟨c!"J", 1⟩], [⟨c!"hr", 1⟩, ⟨c!"ft", 3⟩]⟩, by decide +kernel, by decide +kernel⟩

/-! ## Sums divided -/

theorem packDiv_add (v w : ℝ) (t b : UList) : Val.add (packDiv v t b) (packDiv w t b) = .ok (packDiv (v + w) t b) := by
  unfold packDiv
  split <;> simp [Val.add, unitAdd, multiAdd, isInstance, mkUnit, wrapUnit]

theorem packDiv_sub (v w : ℝ) (t b : UList) : Val.sub (packDiv v t b) (packDiv w t b) = .ok (packDiv (v - w) t b) := by
  unfold packDiv
  split <;> simp [Val.sub, unitSub, multiSub, isInstance, mkUnit, wrapUnit]

/-- `(a+b)/c` is `a/c + b/c` and `(a-b)/c` is `a/c - b/c`, the same object, whatever kind of value the quotients are. -/
theorem C63_div_distrib (a b c : MultiV ℝ) (hcls : a.cls = b.cls) (ht : a.top = b.top) (hbo : a.bot = b.bot)
    (ha : a.Genuine) (hc : c.Genuine) (hv : c.value ≠ 0) :
    ∃ s d ac bc r r', Val.add (.multi a) (.multi b) = .ok s ∧ Val.sub (.multi a) (.multi b) = .ok d ∧
      Val.div (.multi a) (.multi c) = .ok ac ∧ Val.div (.multi b) (.multi c) = .ok bc ∧
      Val.div s (.multi c) = .ok r ∧ Val.add ac bc = .ok r ∧ Val.div d (.multi c) = .ok r' ∧ Val.sub ac bc = .ok r' := by
  obtain ⟨t, bo, e, -⟩ := reduce_full true true (wellPrefixed_append ha.1 hc.2) (wellPrefixed_append ha.2 hc.1)
  generalize prefixProd (a.top ++ c.bot) / prefixProd (a.bot ++ c.top) = f at e
  have hs : Val.add (.multi a) (.multi b) = .ok (.multi ⟨.multi, a.value + b.value, a.top, a.bot⟩) := by
    simp only [Val.add, multiAdd, hcls, ht, hbo, and_self, if_true]
  have hd : Val.sub (.multi a) (.multi b) = .ok (.multi ⟨.multi, a.value - b.value, a.top, a.bot⟩) := by
    simp only [Val.sub, multiSub, ht, hbo, and_self, if_true]
  by_cases hsame : a.top = c.top ∧ a.bot = c.bot
  · refine ⟨_, _, .num (a.value / c.value), .num (b.value / c.value), .num ((a.value + b.value) / c.value),
      .num ((a.value - b.value) / c.value), hs, hd, ?_, ?_, ?_, ?_, ?_, ?_⟩
    · simp only [Val.div, multiDiv, multiDivMulti, hsame, and_self, if_true, pyDiv_ne hv]
    · simp only [Val.div, multiDiv, multiDivMulti, ← ht, ← hbo, hsame, and_self, if_true, pyDiv_ne hv]
    · simp only [Val.div, multiDiv, multiDivMulti, hsame, and_self, if_true, pyDiv_ne hv]
    · simp only [Val.add, add_div]
    · simp only [Val.div, multiDiv, multiDivMulti, hsame, and_self, if_true, pyDiv_ne hv]
    · simp only [Val.sub, sub_div]
  · refine ⟨_, _, packDiv (a.value / c.value * f) t bo, packDiv (b.value / c.value * f) t bo,
      packDiv ((a.value + b.value) / c.value * f) t bo, packDiv ((a.value - b.value) / c.value * f) t bo, hs, hd,
      ?_, ?_, ?_, ?_, ?_, ?_⟩
    · simp only [Val.div, multiDiv, multiDivMulti, hsame, if_false, e, pyDiv_ne hv]
    · simp only [Val.div, multiDiv, multiDivMulti, ← ht, ← hbo, hsame, if_false, e, pyDiv_ne hv]
    · simp only [Val.div, multiDiv, multiDivMulti, hsame, if_false, e, pyDiv_ne hv]
    · rw [packDiv_add, add_div, add_mul]
    · simp only [Val.div, multiDiv, multiDivMulti, hsame, if_false, e, pyDiv_ne hv]
    · rw [packDiv_sub, sub_div, sub_mul]

/-- 6 kJ/hr and 4 kJ/hr divided by 2 W, where the quotients come out as a compound quantity, and by 2 J, where they come out
as a simple one. -/
example : Val.div (.multi (⟨.multi, 10, [⟨c!"kJ", 1⟩], [⟨c!"hr", 1⟩]⟩ : MultiV ℚ)) (.multi ⟨.multi, 2, [⟨c!"W", 1⟩], []⟩) =
      .ok (.multi ⟨.multi, 5000, [⟨c!"s", 1⟩], [⟨c!"hr", 1⟩]⟩) ∧
    Val.div (.multi (⟨.multi, 10, [⟨c!"kJ", 1⟩], [⟨c!"hr", 1⟩]⟩ : MultiV ℚ)) (.multi ⟨.multi, 2, [⟨c!"J", 1⟩], []⟩) =
      .ok (.unit ⟨.unit, 5000, c!"hr", -1⟩) := by
  decide +kernel

end Verif
