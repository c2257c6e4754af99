import Verif.Lemmas.Complete
import Verif.Props.Products
import Verif.Props.Scaling
import Verif.Units.Expr

/-! # Products and quotients with their magnitudes and formal weights, for composing formulas -/

namespace Verif

/-- Formal weight of a value. -/
def Val.weight (w : Sym → ℚ) : Val ℝ → ℚ
  | .unit u => u.exp * w u.unit
  | .multi m => net w m.top m.bot
  | _ => 0

/-- The unit of `top/bot` is not a power of a single symbol (nor dimensionless). -/
def NotPower (top bot : UList) : Prop :=
  ∀ (s : Sym) (e : ℚ), ∃ w : Sym → ℚ, FormalWeight w ∧ net w top bot ≠ e * w s

theorem wsum_append' (w : Sym → ℚ) (l l' : UList) : wsum w (l ++ l') = wsum w l + wsum w l' := wsum_append w l l'

theorem net_single (w : Sym → ℚ) (s : Sym) (e : ℚ) : net w [⟨s, e⟩] [] = e * w s := by simp [net]

theorem reduce_weight (c1 c2 : Bool) {top bot : UList} (ht : WellPrefixedList top) (hb : WellPrefixedList bot)
    {t b : UList} {f : ℝ} (e : reduceUnits (K := ℝ) c1 c2 top bot = .ok (t, b, f)) (w : Sym → ℚ)
    (hw : FormalWeight w) : net w t b = net w top bot := by
  obtain ⟨t0, b0, e0, -⟩ := deconstructPrefixes_spec ht hb
  obtain ⟨t1, b1, e1⟩ := deconstructUnits_ok t0 b0
  obtain ⟨t2, b2, e2⟩ := simplifyUnits_ok
    (cancelUnits (if c1 then combineUnits t1 else t1) (if c2 then combineUnits b1 else b1)).1
    (cancelUnits (if c1 then combineUnits t1 else t1) (if c2 then combineUnits b1 else b1)).2
  simp only [reduceUnits, e0, e1, e2, Except.ok.injEq, Prod.mk.injEq] at e
  obtain ⟨rfl, rfl, -⟩ := e
  rw [reduceAfter hw.toDerivedLaws c1 c2 e1 e2, deconstructPrefixes_net hw ht hb e0]

theorem packMul_weight (v : ℝ) (t b : UList) (w : Sym → ℚ) : (packMul v t b).weight w = net w t b := by
  unfold packMul
  split
  · simp [Val.weight, net]
  · simp [Val.weight, net]
  · rfl

/-- What the reduced product with a simple quantity looks like. -/
inductive PlainResult : Val ℝ → Prop
  | num (x : ℝ) : PlainResult (.num x)
  | unit (u : UnitV ℝ) (h : Unprefixed u.unit) (he : 0 < u.exp) : PlainResult (.unit u)
  | multi (m : MultiV ℝ) (h : m.Plain) : PlainResult (.multi m)

theorem packMul_plain {v : ℝ} {t b : UList} (h1 : UnprefixedList t) (h2 : UnprefixedList b) (hr : Reduced t b) :
    PlainResult (packMul v t b) := by
  unfold packMul
  split
  · exact .num _
  · exact .unit _ (h1 _ (by simp)) (hr.1 _ (by simp))
  · exact .multi _ ⟨h1, h2⟩

/-- Compound times compound: always a compound quantity without prefixes. -/
theorem mul_multi_full (a b : MultiV ℝ) (ha : a.Genuine) (hb : b.Genuine) :
    ∃ c : MultiV ℝ, Val.mul (.multi a) (.multi b) = .ok (.multi c) ∧ c.Plain ∧
      (∀ ρ, Coherent ρ → c.mag ρ = a.mag ρ * b.mag ρ) ∧
      (∀ w, FormalWeight w → net w c.top c.bot = net w a.top a.bot + net w b.top b.bot) ∧
      (c.value = 0 ↔ a.value = 0 ∨ b.value = 0) := by
  have w1 := wellPrefixed_append ha.1 hb.1
  have w2 := wellPrefixed_append ha.2 hb.2
  obtain ⟨t, bo, e, -⟩ := reduce_full true true w1 w2
  obtain ⟨c, ec, -, hp, hm⟩ := C01_mul_magnitude a b ha hb
  have hc : c = ⟨.multi, a.value * b.value * (prefixProd (a.top ++ b.top) / prefixProd (a.bot ++ b.bot)), t, bo⟩ := by
    simp only [Val.mul, multiMul, multiMulMulti, e, Except.ok.injEq, Val.multi.injEq] at ec
    exact ec.symm
  refine ⟨c, ec, hp, hm, fun w hw => ?_, ?_⟩
  · rw [hc]
    simp only
    rw [reduce_weight true true w1 w2 e w hw]
    simp only [net, wsum_append]; ring
  · rw [hc]
    have h1 := (prefixProd_pos (a.top ++ b.top)).ne'
    have h2 := (prefixProd_pos (a.bot ++ b.bot)).ne'
    simp [h1, h2]

/-- Compound times simple, both without prefixes. -/
theorem mul_unit_full (a : MultiV ℝ) (u : UnitV ℝ) (ha : a.Plain) (hu : Unprefixed u.unit) :
    ∃ r, Val.mul (.multi a) (.unit u) = .ok r ∧ Val.mul (.unit u) (.multi a) = .ok r ∧ PlainResult r ∧
      (∀ ρ, Coherent ρ → HasMag ρ r (a.mag ρ * u.mag ρ)) ∧
      (∀ w, FormalWeight w → r.weight w = net w a.top a.bot + u.exp * w u.unit) := by
  obtain ⟨r, e1, e2, hm⟩ := C03_mul_unit_plain_partial a u ha hu
  have w1 := wellPrefixed_append ha.1.well (wellPrefixed_single (e := u.exp) hu.well)
  obtain ⟨t, bo, e, hr, g1, g2, -⟩ := reduce_full true true w1 ha.2.well
  have hc : r = packMul (u.value * a.value) t bo := by
    simp only [Val.mul, multiMul, multiMulUnit, e, Except.ok.injEq] at e1
    exact e1.symm
  refine ⟨r, e1, e2, ?_, hm, fun w hw => ?_⟩
  · rw [hc]; exact packMul_plain g1 g2 hr
  · rw [hc, packMul_weight, reduce_weight true true w1 ha.2.well e w hw]
    simp only [net, wsum_append, wsum_cons, wsum_nil, smul_eq_mul]; ring

/-- A product that is not a power of one symbol is a compound quantity. -/
theorem mul_unit_multi (a : MultiV ℝ) (u : UnitV ℝ) (ha : a.Plain) (hu : Unprefixed u.unit)
    (hn : NotPower (a.top ++ [⟨u.unit, u.exp⟩]) a.bot) :
    ∃ c : MultiV ℝ, Val.mul (.multi a) (.unit u) = .ok (.multi c) ∧ Val.mul (.unit u) (.multi a) = .ok (.multi c) ∧
      c.Plain ∧ (∀ ρ, Coherent ρ → c.mag ρ = a.mag ρ * u.mag ρ) ∧
      (∀ w, FormalWeight w → net w c.top c.bot = net w a.top a.bot + u.exp * w u.unit) := by
  obtain ⟨r, e1, e2, hp, hm, hw⟩ := mul_unit_full a u ha hu
  have key : ∀ w, net w (a.top ++ [⟨u.unit, u.exp⟩]) a.bot = net w a.top a.bot + u.exp * w u.unit := by
    intro w; simp only [net, wsum_append, wsum_cons, wsum_nil, smul_eq_mul]; ring
  cases hp with
  | num x =>
    obtain ⟨w, h1, h2⟩ := hn [] 0
    exact absurd (by rw [key w, ← hw w h1]; simp [Val.weight]) h2
  | unit v hv he =>
    obtain ⟨w, h1, h2⟩ := hn v.unit v.exp
    exact absurd (by rw [key w, ← hw w h1]; rfl) h2
  | multi c hc =>
    refine ⟨c, e1, e2, hc, fun ρ hρ => ?_, hw⟩
    exact (HasMag.multi c).unique (hm ρ hρ)

/-- Compound divided by compound whose units cancel: a plain number. -/
theorem div_multi_num (a b : MultiV ℝ) (ha : a.Genuine) (hb : b.Genuine) (hv : b.value ≠ 0)
    (hc : ∀ w, FormalWeight w → net w a.top a.bot = net w b.top b.bot) :
    ∃ x : ℝ, Val.div (.multi a) (.multi b) = .ok (.num x) ∧ ∀ ρ, Coherent ρ → x = a.mag ρ / b.mag ρ := by
  obtain ⟨r, e, hm⟩ := C02_div_magnitude a b ha hb hv
  have hx : ∃ x, r = .num x := by
    by_cases hs : a.top = b.top ∧ a.bot = b.bot
    · simp only [Val.div, multiDiv, multiDivMulti, hs, and_self, if_true, pyDiv_ne hv, Except.ok.injEq] at e
      exact ⟨_, e.symm⟩
    · have := reduce_complete true (wellPrefixed_append ha.1 hb.2) (wellPrefixed_append ha.2 hb.1)
        (fun w hw => by
          have := hc w hw
          simp only [net, wsum_append] at this ⊢; linarith) (by simp)
      simp only [Val.div, multiDiv, multiDivMulti, hs, if_false, this, pyDiv_ne hv, packDiv, Except.ok.injEq] at e
      exact ⟨_, e.symm⟩
  obtain ⟨x, rfl⟩ := hx
  exact ⟨x, e, fun ρ hρ => (HasMag.num x).unique (hm ρ hρ)⟩

/-- Simple divided by compound whose units cancel, without prefixes or negative exponents: a plain number. -/
theorem div_unit_num (u : UnitV ℝ) (b : MultiV ℝ) (hu : Unprefixed u.unit) (hue : 0 ≤ u.exp) (hb : b.Plain)
    (hv : b.value ≠ 0) (hn1 : AllNonneg b.top) (hn2 : AllNonneg b.bot)
    (hc : ∀ w, FormalWeight w → u.exp * w u.unit = net w b.top b.bot) :
    ∃ x : ℝ, Val.div (.unit u) (.multi b) = .ok (.num x) ∧ ∀ ρ, Coherent ρ → x = u.mag ρ / b.mag ρ := by
  obtain ⟨r, e, hm⟩ := C04_unit_div_plain_partial b u hb hu hv
  have := reduce_complete false (wellPrefixed_append hb.2.well (wellPrefixed_single (e := u.exp) hu.well)) hb.1.well
    (fun w hw => by
      have := hc w hw
      simp only [net, wsum_append, wsum_cons, wsum_nil, smul_eq_mul] at this ⊢; linarith)
    (fun _ => ⟨hn2.append (by simpa [AllNonneg] using hue), hn1⟩)
  have hx : ∃ x, r = .num x := by
    simp only [Val.div, unitDiv, unitDivMulti, this, pyDiv_ne hv, packDiv, Except.ok.injEq] at e
    exact ⟨_, e.symm⟩
  obtain ⟨x, rfl⟩ := hx
  exact ⟨x, e, fun ρ hρ => (HasMag.num x).unique (hm ρ hρ)⟩

/-- Natural powers of compound quantities without prefixes. -/
theorem pow_multi_full (a : MultiV ℝ) (n : ℕ) (ha : a.Plain) :
    ∃ c : MultiV ℝ, Val.pow (.multi a) (n : ℚ) = .ok (.multi c) ∧ c.Plain ∧ c.value = a.value ^ n ∧
      (∀ ρ, Coherent ρ → c.mag ρ = a.mag ρ ^ n) ∧
      (∀ w, FormalWeight w → net w c.top c.bot = n * net w a.top a.bot) := by
  obtain ⟨c, ec, hm⟩ := C07_pow_multi_int a (n : ℤ) (.inr (by positivity))
  have hcast : (((n : ℤ) : ℚ)) = (n : ℚ) := by norm_cast
  rw [hcast] at ec
  obtain ⟨t1, b1, e1⟩ := deconstructUnits_ok (a.top.map (·.pow (n : ℚ))) (a.bot.map (·.pow (n : ℚ)))
  obtain ⟨t2, b2, e2⟩ := simplifyUnits_ok
    (cancelUnits (combineUnits t1) (combineUnits b1)).1 (cancelUnits (combineUnits t1) (combineUnits b1)).2
  have e : reducePow (a.top.map (·.pow (n : ℚ))) (a.bot.map (·.pow (n : ℚ))) = .ok (t2, b2) := by
    simp only [reducePow, e1, e2]
  have hp := allSym_reduceAfter (P := Unprefixed) unprefixed_closed true true
    (allSym_map_pow.2 ha.1) (allSym_map_pow.2 ha.2) e1 (by simpa using e2)
  have hc : c = ⟨.multi, a.value ^ n, t2, b2⟩ := by
    simp only [Val.pow, multiPow, e, pow_real_nat, Except.ok.injEq, Val.multi.injEq] at ec
    exact ec.symm
  refine ⟨c, ec, ?_, ?_, fun ρ hρ => ?_, fun w hw => ?_⟩
  · rw [hc]; exact hp
  · rw [hc]
  · rw [hm ρ hρ, zpow_natCast]
  · rw [hc]
    simp only
    rw [reduceAfter hw.toDerivedLaws true true e1 (by simpa using e2)]
    simp only [net, wsum_map_pow, smul_eq_mul]; ring

end Verif
