import Verif.Lemmas.Returns
import Verif.Props.Canonical

/-!
# C63: products and quotients with negative exponents

`C63_products_equal` excludes negative exponents.  They do no harm above the line on units that are not written out in base
units (`s^-1`, `km^-2`), which is how rates and wave numbers are written; below the line, or on `Pa`, `J`, …, they do.
-/

namespace Verif

/-- Exponents of a list are nonnegative, except on units that are not written out in base units. -/
def SignedList (l : UList) : Prop := ∀ u ∈ l, 0 ≤ u.exp ∨ stemOf u.unit ∉ derivedNames

/-- Negative exponents only above the line, on units that are not written out in base units. -/
def MultiV.SignedAbove {K : Type} (m : MultiV K) : Prop := SignedList m.top ∧ AllNonneg m.bot

/-- Negative exponents only below the line, on units that are not written out in base units. -/
def MultiV.SignedBelow {K : Type} (m : MultiV K) : Prop := AllNonneg m.top ∧ SignedList m.bot

theorem AllNonneg.signed {l : UList} (h : AllNonneg l) : SignedList l := fun u hu => .inl (h u hu)

theorem MultiV.NoNegative.above {K : Type} {m : MultiV K} (h : m.NoNegative) : m.SignedAbove := ⟨h.1.signed, h.2⟩

theorem MultiV.NoNegative.below {K : Type} {m : MultiV K} (h : m.NoNegative) : m.SignedBelow := ⟨h.1, h.2.signed⟩

theorem SignedList.append {l l' : UList} (h : SignedList l) (h' : SignedList l') : SignedList (l ++ l') := by
  intro u hu
  rcases List.mem_append.1 hu with hu | hu
  · exact h u hu
  · exact h' u hu

theorem strip_topOk {l : UList} (hw : WellPrefixedList l) (h : SignedList l) {ps : List (Sym × BaseUnit)}
    (e : mapPy stripUnit l = .ok ps) : TopOk (ps.map (·.2)) := by
  intro v hv
  obtain ⟨⟨p, v⟩, hp, rfl⟩ := List.mem_map.1 hv
  obtain ⟨u, hu, hs⟩ := forall₂_mem (mapPy_forall₂ e).flip _ hp
  have h1 := (stripUnit_cases hs).1
  rcases h u hu with h0 | h0
  · left; simp only [h1]; exact h0
  · right
    rcases (hw u hu).cases with h2 | ⟨q, hq, st, hst, e', hg, hf, hk⟩
    · rw [h2.strip] at hs; cases hs
      rwa [stemOf_unprefixed h2] at h0
    · simp only [stripUnit, hk, if_false, hg] at hs; cases hs
      rwa [e', stemOf_prefixed q hq st hst (e' ▸ hk)] at h0

theorem deconstructPrefixes_signed {top bot t b : UList} {f : ℝ} (ht : WellPrefixedList top)
    (hb : WellPrefixedList bot) (n1 : SignedList top) (n2 : AllNonneg bot)
    (e : deconstructPrefixes (K := ℝ) top bot = .ok (t, b, f)) : TopOk t ∧ AllNonneg b := by
  obtain ⟨ps, p1, q1, -, -⟩ := strip_list ht
  obtain ⟨qs, p2, q2, -, -⟩ := strip_list hb
  simp only [deconstructPrefixes, p1, p2, prefixFactorLoop_spec false ps q1,
    prefixFactorLoop_spec true qs q2] at e
  simp only [Except.ok.injEq, Prod.mk.injEq] at e
  obtain ⟨rfl, rfl, -⟩ := e
  exact ⟨strip_topOk ht n1 p1, strip_nonneg n2 p2⟩

theorem reduce_signed_nonneg {top bot t b : UList} {f : ℝ} (ht : WellPrefixedList top) (hb : WellPrefixedList bot)
    (n1 : SignedList top) (n2 : AllNonneg bot) (e : reduceUnits (K := ℝ) true true top bot = .ok (t, b, f)) :
    AllNonneg t ∧ AllNonneg b := by
  obtain ⟨t0, b0, e0, -⟩ := deconstructPrefixes_spec ht hb
  obtain ⟨m1, m2⟩ := deconstructPrefixes_signed ht hb n1 n2 e0
  obtain ⟨t1, b1, e1⟩ := deconstructUnits_ok t0 b0
  obtain ⟨k1, k2⟩ := topOk_deconLoop _ m1 m2 e1
  obtain ⟨c1, c2⟩ := cancelUnits_nonneg (combineUnits t1) (combineUnits_nonneg k2)
  obtain ⟨t2, b2, e2⟩ := simplifyUnits_ok (cancelUnits (combineUnits t1) (combineUnits b1)).1
    (cancelUnits (combineUnits t1) (combineUnits b1)).2
  simp only [reduceUnits, e0, e1, if_true, e2, Except.ok.injEq, Prod.mk.injEq] at e
  obtain ⟨rfl, rfl, -⟩ := e
  exact simplifyUnits_nonneg c1 c2 e2

theorem reduce_signed_canonical {top bot top' bot' : UList} (ht : WellPrefixedList top) (hb : WellPrefixedList bot)
    (ht' : WellPrefixedList top') (hb' : WellPrefixedList bot') (n1 : SignedList top) (n2 : AllNonneg bot)
    (n1' : SignedList top') (n2' : AllNonneg bot')
    (hw : ∀ w, FormalWeight w → net w top bot = net w top' bot') :
    ∃ t b t' b', reduceUnits (K := ℝ) true true top bot = .ok (t, b, prefixProd top / prefixProd bot) ∧
      reduceUnits (K := ℝ) true true top' bot' = .ok (t', b', prefixProd top' / prefixProd bot') ∧
      Same t t' ∧ Same b b' := by
  have main : ∀ {top bot : UList}, WellPrefixedList top → WellPrefixedList bot → SignedList top → AllNonneg bot →
      ∃ t1 b1, (∀ s, proj s t1 = if 0 < net (fun x => baseWeight s (stemOf x)) top bot then
          [net (fun x => baseWeight s (stemOf x)) top bot] else []) ∧
        (∀ s, proj s b1 = if net (fun x => baseWeight s (stemOf x)) top bot < 0 then
          [-(net (fun x => baseWeight s (stemOf x)) top bot)] else []) ∧
        ∃ t2 b2, simplifyUnits t1 b1 = .ok (t2, b2) ∧
          reduceUnits (K := ℝ) true true top bot = .ok (t2, b2, prefixProd top / prefixProd bot) := by
    intro top bot ht hb n1 n2
    obtain ⟨t0, b0, e0, -⟩ := deconstructPrefixes_spec ht hb
    obtain ⟨u1, u2⟩ := deconstructPrefixes_result ht hb e0
    obtain ⟨m1, m2⟩ := deconstructPrefixes_signed ht hb n1 n2 e0
    obtain ⟨t1, b1, e1⟩ := deconstructUnits_ok t0 b0
    obtain ⟨k1, k2⟩ := topOk_deconLoop _ m1 m2 e1
    obtain ⟨t2, b2, e2⟩ := simplifyUnits_ok (cancelUnits (combineUnits t1) (combineUnits b1)).1
      (cancelUnits (combineUnits t1) (combineUnits b1)).2
    have key : ∀ s, symExp s t1 - symExp s b1 = net (fun x => baseWeight s (stemOf x)) top bot := fun s => by
      rw [decon_symExp_net u1 u2 e1 s, deconstructPrefixes_net (formal_base s) ht hb e0]
    refine ⟨_, _, fun s => ?_, fun s => ?_, t2, b2, e2, ?_⟩
    · rw [(combine_cancel_proj t1 b1 k2 s).1, key]
    · rw [(combine_cancel_proj t1 b1 k2 s).2, key]
    · simp only [reduceUnits, e0, e1, if_true, e2]
  obtain ⟨t1, b1, p1, p2, t2, b2, e1, e2⟩ := main ht hb n1 n2
  obtain ⟨t1', b1', p1', p2', t2', b2', e1', e2'⟩ := main ht' hb' n1' n2'
  have hs := simplifyUnits_same (t := t1) (t' := t1') (b := b1) (b' := b1')
    (fun s => by rw [p1, p1', hw _ (formal_base s)]) (fun s => by rw [p2, p2', hw _ (formal_base s)])
  rw [e1, e1'] at hs
  exact ⟨t2, b2, t2', b2', e2, e2', hs.1, hs.2⟩

theorem reduce_signed_same_quantity {top bot top' bot' : UList} (ht : WellPrefixedList top) (hb : WellPrefixedList bot)
    (ht' : WellPrefixedList top') (hb' : WellPrefixedList bot') (n1 : SignedList top) (n2 : AllNonneg bot)
    (n1' : SignedList top') (n2' : AllNonneg bot')
    (hw : ∀ w, FormalWeight w → net w top bot = net w top' bot') {v v' : ℝ} {ρ : Sym → ℝ} (hρ : Coherent ρ)
    (hm : mag ρ v top bot = mag ρ v' top' bot') :
    ∃ t b t' b', reduceUnits (K := ℝ) true true top bot = .ok (t, b, prefixProd top / prefixProd bot) ∧
      reduceUnits (K := ℝ) true true top' bot' = .ok (t', b', prefixProd top' / prefixProd bot') ∧
      Same t t' ∧ Same b b' ∧ v * (prefixProd top / prefixProd bot) = v' * (prefixProd top' / prefixProd bot') := by
  obtain ⟨t, b, t', b', e, e', s1, s2⟩ := reduce_signed_canonical ht hb ht' hb' n1 n2 n1' n2' hw
  obtain ⟨t0, b0, e0, -, -, -, h0⟩ := reduce_full true true ht hb
  obtain ⟨t1, b1, e1, -, -, -, h1⟩ := reduce_full true true ht' hb'
  rw [e] at e0; cases e0
  rw [e'] at e1; cases e1
  refine ⟨t, b, t', b', e, e', s1, s2, ?_⟩
  have g0 := h0 ρ hρ v
  have g1 := h1 ρ hρ v'
  rw [← hm, ← g0] at g1
  simp only [mag] at g1
  rw [s1.lsize, s2.lsize] at g1
  have hp : Verif.lsize ρ t' / Verif.lsize ρ b' ≠ 0 := (div_pos (lsize_pos hρ.pos t') (lsize_pos hρ.pos b')).ne'
  exact (mul_right_cancel₀ hp g1).symm

/-- `C63_products_equal` with negative exponents above the line. -/
theorem C63_products_equal_signed (a b c d : MultiV ℝ) (ha : a.Genuine) (hb : b.Genuine) (hc : c.Genuine)
    (hd : d.Genuine) (na : a.SignedAbove) (nb : b.SignedAbove) (nc : c.SignedAbove) (nd : d.SignedAbove)
    (hu : UnitsCancel (a.top ++ b.top ++ (c.bot ++ d.bot)) (a.bot ++ b.bot ++ (c.top ++ d.top)))
    (ρ : Sym → ℝ) (hρ : Coherent ρ) (hm : a.mag ρ * b.mag ρ = c.mag ρ * d.mag ρ) :
    ∃ r r', Val.mul (.multi a) (.multi b) = .ok r ∧ Val.mul (.multi c) (.multi d) = .ok r' ∧ Val.eq r r' = true := by
  obtain ⟨t, b1, t', b1', e, e', s1, s2, hv⟩ := reduce_signed_same_quantity (v := a.value * b.value)
    (v' := c.value * d.value)
    (wellPrefixed_append ha.1 hb.1) (wellPrefixed_append ha.2 hb.2) (wellPrefixed_append hc.1 hd.1)
    (wellPrefixed_append hc.2 hd.2) (na.1.append nb.1) (na.2.append nb.2) (nc.1.append nd.1) (nc.2.append nd.2)
    (fun w hw => by
      have := hu w hw
      simp only [net, wsum_append] at this ⊢; linarith) hρ (by
      simp only [MultiV.mag, mag, lsize_append] at hm ⊢
      calc _ = a.value * (lsize ρ a.top / lsize ρ a.bot) * (b.value * (lsize ρ b.top / lsize ρ b.bot)) := by
            rw [mul_div_mul_comm]; ring
        _ = _ := hm
        _ = _ := by rw [mul_div_mul_comm]; ring)
  exact ⟨_, _, by simp only [Val.mul, multiMul, multiMulMulti, e], by simp only [Val.mul, multiMul, multiMulMulti, e'],
    eq_multi_of_same hv s1 s2⟩

/-- The order of the factors does not matter. -/
theorem C63_mul_comm_signed (a b : MultiV ℝ) (ha : a.Genuine) (hb : b.Genuine) (na : a.SignedAbove) (nb : b.SignedAbove) :
    ∃ r r', Val.mul (.multi a) (.multi b) = .ok r ∧ Val.mul (.multi b) (.multi a) = .ok r' ∧ Val.eq r r' = true :=
  C63_products_equal_signed a b b a ha hb hb ha na nb nb na
    (fun w _ => by simp only [net, wsum_append]; ring) _ siSize_coherent (mul_comm _ _)

/-- The product has no negative exponents any more: they have been moved below the line. -/
theorem mul_signed (a b : MultiV ℝ) (ha : a.Genuine) (hb : b.Genuine) (na : a.SignedAbove) (nb : b.SignedAbove) :
    ∃ c : MultiV ℝ, Val.mul (.multi a) (.multi b) = .ok (.multi c) ∧ c.Genuine ∧ c.NoNegative ∧
      (∀ ρ, Coherent ρ → c.mag ρ = a.mag ρ * b.mag ρ) ∧
      (∀ w, FormalWeight w → net w c.top c.bot = net w a.top a.bot + net w b.top b.bot) ∧
      (c.value = 0 ↔ a.value = 0 ∨ b.value = 0) := by
  obtain ⟨c, e, hp, hm, hw, hz⟩ := mul_multi_full a b ha hb
  refine ⟨c, e, ⟨hp.1.well, hp.2.well⟩, ?_, hm, hw, hz⟩
  have w1 := wellPrefixed_append ha.1 hb.1
  have w2 := wellPrefixed_append ha.2 hb.2
  obtain ⟨t, bo, er, -⟩ := reduce_full true true w1 w2
  simp only [Val.mul, multiMul, multiMulMulti, er, Except.ok.injEq, Val.multi.injEq] at e
  subst e
  exact reduce_signed_nonneg w1 w2 (na.1.append nb.1) (na.2.append nb.2) er

/-- The grouping of the factors does not matter. -/
theorem C63_mul_assoc_signed (a b c : MultiV ℝ) (ha : a.Genuine) (hb : b.Genuine) (hc : c.Genuine) (na : a.SignedAbove)
    (nb : b.SignedAbove) (nc : c.SignedAbove) :
    ∃ ab bc r r', Val.mul (.multi a) (.multi b) = .ok ab ∧ Val.mul (.multi b) (.multi c) = .ok bc ∧
      Val.mul ab (.multi c) = .ok r ∧ Val.mul (.multi a) bc = .ok r' ∧ Val.eq r r' = true := by
  obtain ⟨x, ex, gx, nx, mx, wx, -⟩ := mul_signed a b ha hb na nb
  obtain ⟨y, ey, gy, ny, my, wy, -⟩ := mul_signed b c hb hc nb nc
  obtain ⟨r, r', e1, e2, h⟩ := C63_products_equal_signed x c a y gx hc ha gy nx.above nc na ny.above
    (fun w hw => by
      have h1 := wx w hw
      have h2 := wy w hw
      simp only [net, wsum_append] at h1 h2 ⊢; linarith) _ siSize_coherent (by
      rw [mx _ siSize_coherent, my _ siSize_coherent]; ring)
  exact ⟨_, _, r, r', ex, ey, e1, e2, h⟩

/-- `C63_quotients_equal` with negative exponents above the line of the dividends and below the line of the divisors. -/
theorem C63_quotients_equal_signed (a b c d : MultiV ℝ) (ha : a.Genuine) (hb : b.Genuine) (hc : c.Genuine)
    (hd : d.Genuine) (na : a.SignedAbove) (nb : b.SignedBelow) (nc : c.SignedAbove) (nd : d.SignedBelow)
    (hvb : b.value ≠ 0) (hvd : d.value ≠ 0)
    (hu : UnitsCancel (a.top ++ b.bot ++ (c.bot ++ d.top)) (a.bot ++ b.top ++ (c.top ++ d.bot)))
    (ρ : Sym → ℝ) (hρ : Coherent ρ) (hm : a.mag ρ / b.mag ρ = c.mag ρ / d.mag ρ) :
    ∃ r r', Val.div (.multi a) (.multi b) = .ok r ∧ Val.div (.multi c) (.multi d) = .ok r' ∧ Val.eq r r' = true := by
  have key : ∀ p q : MultiV ℝ, mag ρ (p.value / q.value) (p.top ++ q.bot) (p.bot ++ q.top) = p.mag ρ / q.mag ρ := by
    intro p q
    simp only [MultiV.mag, mag, lsize_append]
    have h1 := (lsize_pos hρ.pos p.bot).ne'
    have h2 := (lsize_pos hρ.pos q.top).ne'
    have h3 := (lsize_pos hρ.pos q.bot).ne'
    have h4 := (lsize_pos hρ.pos p.top).ne'
    by_cases hq : q.value = 0
    · simp [hq]
    · field_simp
  obtain ⟨t, b1, t', b1', e, e', s1, s2, hv⟩ := reduce_signed_same_quantity (v := a.value / b.value)
    (v' := c.value / d.value)
    (wellPrefixed_append ha.1 hb.2) (wellPrefixed_append ha.2 hb.1) (wellPrefixed_append hc.1 hd.2)
    (wellPrefixed_append hc.2 hd.1) (na.1.append nb.2) (na.2.append nb.1) (nc.1.append nd.2) (nc.2.append nd.1)
    (fun w hw => by
      have := hu w hw
      simp only [net, wsum_append] at this ⊢; linarith) hρ (by rw [key, key, hm])
  have short : ∀ p q : MultiV ℝ, p.Genuine → q.Genuine → q.value ≠ 0 → ∀ t b, reduceUnits (K := ℝ) true true
      (p.top ++ q.bot) (p.bot ++ q.top) = .ok (t, b, prefixProd (p.top ++ q.bot) / prefixProd (p.bot ++ q.top)) →
      Val.div (.multi p) (.multi q) =
        .ok (packDiv (p.value / q.value * (prefixProd (p.top ++ q.bot) / prefixProd (p.bot ++ q.top))) t b) := by
    intro p q hp hq hv t b e
    by_cases hs : p.top = q.top ∧ p.bot = q.bot
    · have hcan := reduce_complete true (wellPrefixed_append hp.1 hq.2) (wellPrefixed_append hp.2 hq.1)
        (fun w hw => by simp only [net, wsum_append, hs.1, hs.2]; ring) (by simp)
      rw [e] at hcan
      simp only [Except.ok.injEq, Prod.mk.injEq] at hcan
      obtain ⟨rfl, rfl, -⟩ := hcan
      have h1 : prefixProd (p.top ++ q.bot) / prefixProd (p.bot ++ q.top) = 1 := by
        rw [hs.1, hs.2]
        have : prefixProd (q.top ++ q.bot) = prefixProd (q.bot ++ q.top) := by
          simp only [prefixProd]
          exact ((List.perm_append_comm).map _).prod_eq
        rw [this, div_self (prefixProd_pos _).ne']
      simp only [Val.div, multiDiv, multiDivMulti, hs, and_self, if_true, pyDiv_ne hv, packDiv]
      rw [hs.1, hs.2] at h1
      rw [h1, mul_one]
    · simp only [Val.div, multiDiv, multiDivMulti, hs, if_false, e, pyDiv_ne hv]
  exact ⟨_, _, short a b ha hb hvb _ _ e, short c d hc hd hvd _ _ e', eq_packDiv_of_same hv s1 s2⟩

/-- 3 mol·L^-1·ms^-1 and 2 W·m^-2/K satisfy the conditions; they are not covered by `C63_products_equal`. -/
example : (⟨.multi, 3, [⟨c!"mol", 1⟩, ⟨c!"L", -1⟩, ⟨c!"ms", -1⟩], []⟩ : MultiV ℝ).Genuine ∧
    (⟨.multi, 3, [⟨c!"mol", 1⟩, ⟨c!"L", -1⟩, ⟨c!"ms", -1⟩], []⟩ : MultiV ℝ).SignedAbove ∧
    ¬ (⟨.multi, 3, [⟨c!"mol", 1⟩, ⟨c!"L", -1⟩, ⟨c!"ms", -1⟩], []⟩ : MultiV ℝ).NoNegative ∧
    (⟨.multi, 2, [⟨c!"W", 1⟩, ⟨c!"m", -2⟩], [⟨c!"K", 1⟩]⟩ : MultiV ℝ).Genuine ∧
    (⟨.multi, 2, [⟨c!"W", 1⟩, ⟨c!"m", -2⟩], [⟨c!"K", 1⟩]⟩ : MultiV ℝ).SignedAbove := by
  refine ⟨by decide, ⟨by unfold SignedList; decide +kernel, by simp [AllNonneg]⟩, fun h => ?_, by decide,
    ⟨by unfold SignedList; decide +kernel, by simp [AllNonneg]⟩⟩
  exact absurd (h.1 ⟨c!"L", -1⟩ (by simp)) (by norm_num)

/-- The product of two such quantities, computed: the negative exponents have gone below the line. -/
example : Val.mul (.multi (⟨.multi, 3, [⟨c!"mol", 1⟩, ⟨c!"m", -3⟩, ⟨c!"s", -1⟩], []⟩ : MultiV ℚ))
      (.multi ⟨.multi, 2, [⟨c!"W", 1⟩, ⟨c!"m", -2⟩], [⟨c!"K", 1⟩]⟩) =
    .ok (.multi ⟨.multi, 6, [⟨c!"mol", 1⟩, ⟨c!"Pa", 1⟩], [⟨c!"m", 2⟩, ⟨c!"s", 2⟩, ⟨c!"K", 1⟩]⟩) := by decide +kernel

/-- The condition on the units is needed: `Pa^-1` times K and 1/Pa times K compare unequal, although no exponent below the
line is negative. -/
theorem C63_derived_false : ¬ ∀ (a b c d : MultiV ℝ), a.Genuine → b.Genuine → c.Genuine → d.Genuine →
    AllNonneg a.bot → AllNonneg b.bot → AllNonneg c.bot → AllNonneg d.bot →
    UnitsCancel (a.top ++ b.top ++ (c.bot ++ d.bot)) (a.bot ++ b.bot ++ (c.top ++ d.top)) →
    (∀ ρ, Coherent ρ → a.mag ρ * b.mag ρ = c.mag ρ * d.mag ρ) →
    ∃ r r', Val.mul (.multi a) (.multi b) = .ok r ∧ Val.mul (.multi c) (.multi d) = .ok r' ∧ Val.eq r r' = true := by
  intro h
  obtain ⟨r, r', e1, e2, h⟩ := h ⟨.multi, 1, [⟨c!"Pa", -1⟩], []⟩ ⟨.multi, 1, [⟨c!"K", 1⟩], []⟩
    ⟨.multi, 1, [], [⟨c!"Pa", 1⟩]⟩ ⟨.multi, 1, [⟨c!"K", 1⟩], []⟩ (by decide) (by decide) (by decide) (by decide)
    (by simp [AllNonneg]) (by simp [AllNonneg]) (by simp [AllNonneg]) (by simp [AllNonneg])
    (fun w _ => by simp [net]) (fun ρ hρ => by
      simp only [MultiV.mag, mag, lsize, List.map_cons, List.map_nil, List.prod_cons, List.prod_nil]
      push_cast
      rw [Real.rpow_neg (hρ.pos _).le, Real.rpow_one]
      have := (hρ.pos c!"Pa").ne'
      field_simp)
  have f1 : Val.mul (.multi (⟨.multi, 1, [⟨c!"Pa", -1⟩], []⟩ : MultiV ℝ)) (.multi ⟨.multi, 1, [⟨c!"K", 1⟩], []⟩) =
      .ok (.multi ⟨.multi, 1, [⟨c!"K", 1⟩], [⟨c!"kg", 1⟩, ⟨c!"m", -1⟩, ⟨c!"s", -2⟩]⟩) := by
    units_eval [Val.mul, multiMul, multiMulMulti]
  have f2 : Val.mul (.multi (⟨.multi, 1, [], [⟨c!"Pa", 1⟩]⟩ : MultiV ℝ)) (.multi ⟨.multi, 1, [⟨c!"K", 1⟩], []⟩) =
      .ok (.multi ⟨.multi, 1, [⟨c!"K", 1⟩, ⟨c!"m", 1⟩, ⟨c!"s", 2⟩], [⟨c!"kg", 1⟩]⟩) := by
    units_eval [Val.mul, multiMul, multiMulMulti]
  rw [f1] at e1; rw [f2] at e2
  cases e1; cases e2
  have hs : setEq [⟨c!"K", 1⟩] [⟨c!"K", 1⟩, ⟨c!"m", 1⟩, ⟨c!"s", 2⟩] = false := by decide +kernel
  simp only [Val.eq, multiEq, hs, Bool.and_false, Bool.false_and] at h
  cases h

end Verif
