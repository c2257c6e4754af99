import Verif.Lemmas.PlainOps
import Verif.Utility.Dimensionless
import Verif.Tactic.UnitsEval
import Verif.Spec.SI

/-! # C49, C61: ratios of like quantities, dimensionless groups -/

namespace Verif

/-! ## C61: when a quotient is a plain number -/

/-- A quotient of compound quantities whose units cancel is the plain number that is the ratio of the magnitudes. -/
theorem C61_ratio_number (a b : MultiV ℝ) (ha : a.Genuine) (hb : b.Genuine) (hv : b.value ≠ 0)
    (hc : UnitsCancel (a.top ++ b.bot) (a.bot ++ b.top)) :
    ∃ x : ℝ, Val.div (.multi a) (.multi b) = .ok (.num x) ∧ ∀ ρ, Coherent ρ → x = a.mag ρ / b.mag ρ :=
  div_multi_num a b ha hb hv fun w hw => by
    have := hc w hw
    simp only [net, wsum_append] at this ⊢; linarith

/-- 3 kJ/s divided by 2 cm³·kPa/min: the hypotheses hold. -/
example : (⟨.multi, 3, [⟨c!"kJ", 1⟩], [⟨c!"s", 1⟩]⟩ : MultiV ℝ).Genuine ∧
    (⟨.multi, 2, [⟨c!"cm", 3⟩, ⟨c!"kPa", 1⟩], [⟨c!"s", 1⟩]⟩ : MultiV ℝ).Genuine ∧ (2 : ℝ) ≠ 0 ∧
    UnitsCancel ([⟨c!"kJ", 1⟩] ++ [⟨c!"s", 1⟩]) ([⟨c!"s", 1⟩] ++ [⟨c!"cm", 3⟩, ⟨c!"kPa", 1⟩]) := by
  refine ⟨by decide, by decide, by norm_num, fun w hw => ?_⟩
  have h1 := hw.si ('k', 1000) (by decide) c!"J" (by decide) (by decide)
  have h2 := hw.si ('k', 1000) (by decide) c!"Pa" (by decide) (by decide)
  have h3 := hw.si ('c', 1 / 100) (by simp [siPrefixes]) c!"m" (by decide) (by decide)
  have h4 := hw.joule
  have h5 := hw.pascal
  simp only [smul_eq_mul] at h4 h5
  simp [net, h1, h2, h3, h4, h5]; ring

/-- The converse: only if the units cancel is the quotient a plain number. -/
theorem C61_number_only_if (a b : MultiV ℝ) (ha : a.Genuine) (hb : b.Genuine) (x : ℝ)
    (h : Val.div (.multi a) (.multi b) = .ok (.num x)) : UnitsCancel (a.top ++ b.bot) (a.bot ++ b.top) := by
  intro w hw
  by_cases hs : a.top = b.top ∧ a.bot = b.bot
  · simp only [net, wsum_append, hs.1, hs.2]; ring
  · obtain ⟨t, bo, e, -⟩ := reduce_full true true
      (wellPrefixed_append ha.1 hb.2) (wellPrefixed_append ha.2 hb.1)
    rw [← reduce_weight true true (wellPrefixed_append ha.1 hb.2) (wellPrefixed_append ha.2 hb.1) e w hw]
    simp only [Val.div, multiDiv, multiDivMulti, hs, if_false, e] at h
    split at h
    · cases h
    · rw [Except.ok.injEq] at h
      unfold packDiv at h
      split at h
      · simp [net]
      · cases h
      · cases h
      · cases h

/-- Different lengths do not give a number: the library does not know that a foot is a length. -/
example : ¬ UnitsCancel [⟨c!"ft", 1⟩, ⟨c!"s", 1⟩] [⟨c!"m", 1⟩, ⟨c!"s", 1⟩] := by
  intro h
  have := h _ (formal_base c!"ft")
  revert this
  decide +kernel

/-- Adding, comparing or printing a ratio as a number is safe only for compound quantities: dividing by a simple one can
leave cancelled units behind. m·m divided by m² is not a plain number. -/
theorem C61_simple_divisor_false : ¬ ∀ (a : MultiV ℝ) (u : UnitV ℝ), a.Plain → Unprefixed u.unit → u.value ≠ 0 →
    UnitsCancel a.top (a.bot ++ [⟨u.unit, u.exp⟩]) → ∃ x : ℝ, Val.div (.multi a) (.unit u) = .ok (.num x) := by
  intro h
  obtain ⟨x, hx⟩ := h ⟨.multi, 1, [⟨c!"m", 1⟩, ⟨c!"m", 1⟩], []⟩ ⟨.length, 1, c!"m", 2⟩ (by decide) (by decide) one_ne_zero
    (fun w hw => by simp [net]; ring)
  have : Val.div (.multi (⟨.multi, 1, [⟨c!"m", 1⟩, ⟨c!"m", 1⟩], []⟩ : MultiV ℝ)) (.unit ⟨.length, 1, c!"m", 2⟩) =
      .ok (.multi ⟨.multi, 1, [⟨c!"m", 1⟩], [⟨c!"m", 1⟩]⟩) := by
    units_eval [Val.div, multiDiv, multiDivUnit, pyDiv_ne (one_ne_zero (α := ℝ)), div_one]
  rw [this] at hx
  cases hx

/-! ## C49: dimensionless groups -/

/-- The Prandtl number, whatever units with whatever SI prefixes the arguments have, provided the units cancel. -/
theorem C49_prandtl (mu cp k : MultiV ℝ) (h1 : mu.Genuine) (h2 : cp.Genuine) (h3 : k.Genuine) (hk : k.value ≠ 0)
    (hc : UnitsCancel (mu.top ++ cp.top ++ k.bot) (mu.bot ++ cp.bot ++ k.top)) :
    ∃ x : ℝ, prandtl (.ok (.multi mu)) (.ok (.multi cp)) (.ok (.multi k)) = pnum x ∧
      ∀ ρ, Coherent ρ → x = mu.mag ρ * cp.mag ρ / k.mag ρ := by
  obtain ⟨c, e, hp, hm, hw, -⟩ := mul_multi_full mu cp h1 h2
  obtain ⟨x, ex, hx⟩ := div_multi_num c k ⟨hp.1.well, hp.2.well⟩ h3 hk (fun w hh => by
    have := hc w hh
    rw [hw w hh]
    simp only [net, wsum_append] at this ⊢; linarith)
  refine ⟨x, ?_, fun ρ hρ => by rw [hx ρ hρ, hm ρ hρ]⟩
  simp only [prandtl, ok_mul, e, ok_div, ex, pnum]

/-- The Schmidt number, whatever units with whatever SI prefixes, provided the units cancel. -/
theorem C49_schmidt (mu rho D : MultiV ℝ) (h1 : mu.Genuine) (h2 : rho.Genuine) (h3 : D.Genuine)
    (hr : rho.value ≠ 0) (hD : D.value ≠ 0)
    (hc : UnitsCancel (mu.top ++ rho.bot ++ D.bot) (mu.bot ++ rho.top ++ D.top)) :
    ∃ x : ℝ, schmidt (.ok (.multi mu)) (.ok (.multi rho)) (.ok (.multi D)) = pnum x ∧
      ∀ ρ, Coherent ρ → x = mu.mag ρ / (rho.mag ρ * D.mag ρ) := by
  obtain ⟨c, e, hp, hm, hw, hz⟩ := mul_multi_full rho D h2 h3
  obtain ⟨x, ex, hx⟩ := div_multi_num mu c h1 ⟨hp.1.well, hp.2.well⟩ (fun h => by
      rcases hz.1 h with h | h
      · exact hr h
      · exact hD h) (fun w hh => by
    have := hc w hh
    rw [hw w hh]
    simp only [net, wsum_append] at this ⊢; linarith)
  refine ⟨x, ?_, fun ρ hρ => by rw [hx ρ hρ, hm ρ hρ]⟩
  simp only [schmidt, ok_mul, e, ok_div, ex, pnum]

/-- A compound quantity times a length over a compound quantity. -/
theorem mul_unit_div (a k : MultiV ℝ) (L : UnitV ℝ) (ha : a.Plain) (hL : Unprefixed L.unit) (hk : k.Plain)
    (hkv : k.value ≠ 0) (hn1 : ∀ u ∈ k.top ++ k.bot, 0 ≤ u.exp) (hd : ¬ UnitsCancel k.top k.bot)
    (hc : UnitsCancel (a.top ++ [⟨L.unit, L.exp⟩] ++ k.bot) (a.bot ++ k.top)) :
    ∃ r x, Val.mul (.multi a) (.unit L) = .ok r ∧ Val.div r (.multi k) = .ok (.num x) ∧
      ∀ ρ, Coherent ρ → x = a.mag ρ * L.mag ρ / k.mag ρ := by
  obtain ⟨r, e, -, hp, hm, hw⟩ := mul_unit_full a L ha hL
  have hc' : ∀ w, FormalWeight w → r.weight w = net w k.top k.bot := fun w hh => by
    have := hc w hh
    rw [hw w hh]
    simp only [net, wsum_append, wsum_cons, wsum_nil, smul_eq_mul] at this ⊢; linarith
  cases hp with
  | num y => exact absurd (fun w hh => (hc' w hh).symm) hd
  | unit u hu he =>
    obtain ⟨x, ex, hx⟩ := div_unit_num u k hu he.le hk hkv (fun v hv => hn1 v (by simp [hv]))
      (fun v hv => hn1 v (by simp [hv])) hc'
    exact ⟨_, x, e, ex, fun ρ hρ => by rw [hx ρ hρ, (HasMag.unit u).unique (hm ρ hρ)]⟩
  | multi c hcp =>
    obtain ⟨x, ex, hx⟩ := div_multi_num c k ⟨hcp.1.well, hcp.2.well⟩ ⟨hk.1.well, hk.2.well⟩ hkv hc'
    exact ⟨_, x, e, ex, fun ρ hρ => by rw [hx ρ hρ, (HasMag.multi c).unique (hm ρ hρ)]⟩

/-- The Reynolds number: density and velocity with any SI prefixes; length and viscosity without.
Missing: prefixed lengths (`C49_reynolds_false`). -/
theorem C49_reynolds_partial (rho v mu : MultiV ℝ) (L : UnitV ℝ) (h1 : rho.Genuine) (h2 : v.Genuine)
    (hL : Unprefixed L.unit) (hmu : mu.Plain) (hmv : mu.value ≠ 0) (hn : ∀ u ∈ mu.top ++ mu.bot, 0 ≤ u.exp)
    (hd : ¬ UnitsCancel mu.top mu.bot)
    (hc : UnitsCancel (rho.top ++ v.top ++ [⟨L.unit, L.exp⟩] ++ mu.bot) (rho.bot ++ v.bot ++ mu.top)) :
    ∃ x : ℝ, reynolds (.ok (.multi rho)) (.ok (.multi v)) (.ok (.unit L)) (.ok (.multi mu)) = pnum x ∧
      ∀ ρ, Coherent ρ → x = rho.mag ρ * v.mag ρ * L.mag ρ / mu.mag ρ := by
  obtain ⟨c, e, hp, hm, hw, -⟩ := mul_multi_full rho v h1 h2
  obtain ⟨r, x, er, ex, hx⟩ := mul_unit_div c mu L hp hL hmu hmv hn hd (fun w hh => by
    have := hc w hh
    have h' := hw w hh
    simp only [net, wsum_append, wsum_cons, wsum_nil, smul_eq_mul] at this h' ⊢; linarith)
  refine ⟨x, ?_, fun ρ hρ => by rw [hx ρ hρ, hm ρ hρ]⟩
  simp only [reynolds, ok_mul, e, er, ok_div, ex, pnum]

/-- g/m³, km/s, m and cP satisfy the side conditions (the product of the first three is simplified to a simple quantity
in cP before the division). -/
example : (⟨.multi, 5, [⟨c!"g", 1⟩], [⟨c!"m", 3⟩]⟩ : MultiV ℝ).Genuine ∧
    (⟨.multi, 2, [⟨c!"km", 1⟩], [⟨c!"s", 1⟩]⟩ : MultiV ℝ).Genuine ∧ Unprefixed c!"m" ∧
    (⟨.multi, 3, [⟨c!"cP", 1⟩], []⟩ : MultiV ℝ).Plain ∧
    ¬ UnitsCancel [⟨c!"cP", 1⟩] [] ∧
    UnitsCancel ([⟨c!"g", 1⟩] ++ [⟨c!"km", 1⟩] ++ [⟨c!"m", 1⟩] ++ []) ([⟨c!"m", 3⟩] ++ [⟨c!"s", 1⟩] ++ [⟨c!"cP", 1⟩]) := by
  refine ⟨by decide, by decide, by decide, by decide, fun h => ?_, fun w hw => ?_⟩
  · have := h _ (formal_base c!"g")
    revert this; decide +kernel
  · have h1 := hw.si ('k', 1000) (by decide) c!"m" (by decide) (by decide)
    have h2 := hw.centipoise
    simp [net, h1, h2]; ring

/-- The Biot number, without prefixes. Missing: prefixed units (`C49_biot_false`). -/
theorem C49_biot_partial (h k : MultiV ℝ) (L : UnitV ℝ) (hh : h.Plain) (hL : Unprefixed L.unit) (hk : k.Plain)
    (hkv : k.value ≠ 0) (hn : ∀ u ∈ k.top ++ k.bot, 0 ≤ u.exp) (hd : ¬ UnitsCancel k.top k.bot)
    (hc : UnitsCancel (h.top ++ [⟨L.unit, L.exp⟩] ++ k.bot) (h.bot ++ k.top)) :
    ∃ x : ℝ, biot (.ok (.multi h)) (.ok (.unit L)) (.ok (.multi k)) = pnum x ∧
      ∀ ρ, Coherent ρ → x = h.mag ρ * L.mag ρ / k.mag ρ := by
  obtain ⟨r, x, er, ex, hx⟩ := mul_unit_div h k L hh hL hk hkv hn hd hc
  refine ⟨x, ?_, hx⟩
  simp only [biot, ok_mul, er, ok_div, ex, pnum]

theorem notPower_of_net {top bot top' bot' : UList} (h : NotPower top bot)
    (e : ∀ w, FormalWeight w → net w top' bot' = net w top bot) : NotPower top' bot' := by
  intro s q
  obtain ⟨w, h1, h2⟩ := h s q
  exact ⟨w, h1, by rwa [e w h1]⟩

/-- The Graetz number, lengths, heat capacity and conductivity without prefixes; the intermediate products must not be
powers of one symbol (they are not, dimensionally). Missing: prefixed units (`C49_gretz_false`). -/
theorem C49_gretz_partial (cp rho v k : MultiV ℝ) (d l cl : UnitV ℝ) (hcp : cp.Plain) (hr : rho.Genuine)
    (hv : v.Genuine) (hk : k.Plain) (hd : Unprefixed d.unit) (hl : Unprefixed l.unit) (hcl : Unprefixed cl.unit)
    (hk0 : k.value ≠ 0) (hl0 : l.value ≠ 0)
    (n1 : NotPower (cp.top ++ [⟨d.unit, d.exp⟩]) cp.bot)
    (n2 : NotPower (cp.top ++ [⟨d.unit, d.exp⟩] ++ [⟨cl.unit, cl.exp⟩]) cp.bot)
    (n3 : NotPower (k.top ++ [⟨l.unit, l.exp⟩]) k.bot)
    (hc : UnitsCancel (cp.top ++ [⟨d.unit, d.exp⟩] ++ [⟨cl.unit, cl.exp⟩] ++ rho.top ++ v.top ++ k.bot)
      (cp.bot ++ rho.bot ++ v.bot ++ (k.top ++ [⟨l.unit, l.exp⟩]))) :
    ∃ x : ℝ, gretz (.ok (.unit d)) (.ok (.unit l)) (.ok (.multi cp)) (.ok (.unit cl)) (.ok (.multi rho))
        (.ok (.multi v)) (.ok (.multi k)) = pnum x ∧
      ∀ ρ, Coherent ρ → x = cp.mag ρ * d.mag ρ * cl.mag ρ * rho.mag ρ * v.mag ρ / (k.mag ρ * l.mag ρ) := by
  obtain ⟨a, e1, -, p1, m1, w1⟩ := mul_unit_multi cp d hcp hd n1
  obtain ⟨b, e2, -, p2, m2, w2⟩ := mul_unit_multi a cl p1 hcl (notPower_of_net n2 fun w hw => by
    have := w1 w hw
    simp only [net, wsum_append, wsum_cons, wsum_nil, smul_eq_mul] at this ⊢; linarith)
  obtain ⟨c, e3, p3, m3, w3, -⟩ := mul_multi_full b rho ⟨p2.1.well, p2.2.well⟩ hr
  obtain ⟨f, e4, p4, m4, w4, -⟩ := mul_multi_full c v ⟨p3.1.well, p3.2.well⟩ hv
  obtain ⟨g, e5, -, p5, m5, w5⟩ := mul_unit_multi k l hk hl n3
  have hg : g.value ≠ 0 := by
    intro h0
    have := m5 _ siSize_coherent
    simp only [MultiV.mag, mag, UnitV.mag, h0, zero_mul] at this
    have hpos := siSize_coherent.pos
    exact mul_ne_zero (mul_ne_zero hk0 (div_pos (lsize_pos hpos _) (lsize_pos hpos _)).ne')
      (mul_ne_zero hl0 (Real.rpow_pos_of_pos (hpos _) _).ne') this.symm
  obtain ⟨x, ex, hx⟩ := div_multi_num f g ⟨p4.1.well, p4.2.well⟩ ⟨p5.1.well, p5.2.well⟩ hg (fun w hw => by
    rw [w4 w hw, w3 w hw, w2 w hw, w1 w hw, w5 w hw]
    have := hc w hw
    simp only [net, wsum_append, wsum_cons, wsum_nil, smul_eq_mul] at this ⊢; linarith)
  refine ⟨x, ?_, fun ρ hρ => by rw [hx ρ hρ, m4 ρ hρ, m3 ρ hρ, m2 ρ hρ, m1 ρ hρ, m5 ρ hρ]⟩
  simp only [gretz, ok_mul, e1, e2, e3, e4, e5, ok_div, ex, pnum]

/-- The Grashof number. Gravity with any SI prefix, the other arguments without; temperatures of one class and unit.
Missing: prefixed units (`C49_grashof_false`). -/
theorem C49_grashof_partial (g rho mu : MultiV ℝ) (beta T2 T1 L : UnitV ℝ) (hg : g.Genuine) (hr : rho.Plain)
    (hmu : mu.Plain) (hm0 : mu.value ≠ 0) (hb : Unprefixed beta.unit) (hL : Unprefixed L.unit) (hT : Unprefixed T2.unit)
    (cL : L.Constructed) (cT : T2.Constructed) (hcls : T1.cls = T2.cls) (hun : T2.unit = T1.unit) (hex : T2.exp = T1.exp)
    (n1 : NotPower (rho.top.map (·.pow 2) ++ [⟨L.unit, L.exp * 3⟩]) (rho.bot.map (·.pow 2)))
    (n2 : NotPower (rho.top.map (·.pow 2) ++ [⟨L.unit, L.exp * 3⟩] ++ [⟨beta.unit, beta.exp⟩]) (rho.bot.map (·.pow 2)))
    (n3 : NotPower (rho.top.map (·.pow 2) ++ [⟨L.unit, L.exp * 3⟩] ++ [⟨beta.unit, beta.exp⟩] ++ [⟨T2.unit, T2.exp⟩])
      (rho.bot.map (·.pow 2)))
    (hc : UnitsCancel (rho.top.map (·.pow 2) ++ [⟨L.unit, L.exp * 3⟩] ++ [⟨beta.unit, beta.exp⟩] ++ [⟨T2.unit, T2.exp⟩]
      ++ g.top ++ mu.bot.map (·.pow 2)) (rho.bot.map (·.pow 2) ++ g.bot ++ mu.top.map (·.pow 2))) :
    ∃ x : ℝ, grashof (.ok (.multi g)) (.ok (.unit beta)) (.ok (.unit T2)) (.ok (.unit T1)) (.ok (.unit L))
        (.ok (.multi rho)) (.ok (.multi mu)) = pnum x ∧
      ∀ ρ, Coherent ρ → x = L.mag ρ ^ 3 * rho.mag ρ ^ 2 * beta.mag ρ * (T2.mag ρ - T1.mag ρ) * g.mag ρ / mu.mag ρ ^ 2 := by
  obtain ⟨r2, er, pr, -, mr, wr⟩ := pow_multi_full rho 2 hr
  obtain ⟨mu2, em, pm, vm, mm, wm⟩ := pow_multi_full mu 2 hmu
  push_cast at er em wr wm
  have eL : Val.pow (.unit L) 3 = .ok (.unit ⟨L.cls, L.value ^ 3, L.unit, L.exp * 3⟩) := by
    simp only [Val.pow, unitPow, pow_real_three, cL.rebuild, wrapUnit]
  have eT : Val.sub (.unit T2) (.unit T1) = .ok (.unit ⟨T2.cls, T2.value - T1.value, T2.unit, T2.exp⟩) := by
    have : isInstance T1.cls T2.cls := .inr hcls
    simp only [Val.sub, unitSub, if_pos this, if_pos (And.intro hun hex), cT.rebuild, wrapUnit]
  obtain ⟨a, -, e1, p1, m1, w1⟩ := mul_unit_multi r2 ⟨L.cls, L.value ^ 3, L.unit, L.exp * 3⟩ pr hL
    (notPower_of_net n1 fun w hw => by
      have := wr w hw
      simp only [net, wsum_append, wsum_cons, wsum_nil, smul_eq_mul, wsum_map_pow] at this ⊢; linarith)
  obtain ⟨b, e2, -, p2, m2, w2⟩ := mul_unit_multi a beta p1 hb (notPower_of_net n2 fun w hw => by
    have := w1 w hw
    have := wr w hw
    simp only [net, wsum_append, wsum_cons, wsum_nil, smul_eq_mul, wsum_map_pow] at *; linarith)
  obtain ⟨c, e3, -, p3, m3, w3⟩ := mul_unit_multi b ⟨T2.cls, T2.value - T1.value, T2.unit, T2.exp⟩ p2 hT
    (notPower_of_net n3 fun w hw => by
      have := w2 w hw
      have := w1 w hw
      have := wr w hw
      simp only [net, wsum_append, wsum_cons, wsum_nil, smul_eq_mul, wsum_map_pow] at *; linarith)
  obtain ⟨d, e4, p4, m4, w4, -⟩ := mul_multi_full c g ⟨p3.1.well, p3.2.well⟩ hg
  obtain ⟨x, ex, hx⟩ := div_multi_num d mu2 ⟨p4.1.well, p4.2.well⟩ ⟨pm.1.well, pm.2.well⟩
    (by rw [vm]; exact pow_ne_zero _ hm0) (fun w hw => by
      have h5 := w4 w hw
      have h4 := w3 w hw
      have h3 := w2 w hw
      have h2 := w1 w hw
      have h1 := wr w hw
      have h6 := wm w hw
      have h7 := hc w hw
      simp only [net, wsum_append, wsum_cons, wsum_nil, smul_eq_mul, wsum_map_pow] at *; linarith)
  refine ⟨x, ?_, fun ρ hρ => ?_⟩
  · simp only [grashof, ok_pow, ok_mul, ok_sub, eL, er, e1, e2, eT, e3, e4, em, ok_div, ex, pnum]
  · rw [hx ρ hρ, m4 ρ hρ, m3 ρ hρ, m2 ρ hρ, m1 ρ hρ, mr ρ hρ, mm ρ hρ]
    have hL3 : (⟨L.cls, L.value ^ 3, L.unit, L.exp * 3⟩ : UnitV ℝ).mag ρ = L.mag ρ ^ 3 := by
      simp only [UnitV.mag, mul_pow]
      congr 1
      rw [← Real.rpow_natCast, ← Real.rpow_mul (hρ.pos _).le]; push_cast; rfl
    have hTs : (⟨T2.cls, T2.value - T1.value, T2.unit, T2.exp⟩ : UnitV ℝ).mag ρ = T2.mag ρ - T1.mag ρ := by
      simp only [UnitV.mag, ← hun, ← hex, sub_mul]
    rw [hL3, hTs]; ring

/-! ### Non-vacuity of the side conditions -/

/-- A unit with nonzero weight of two base symbols none of which occurs in a definition of the other is no power. -/
theorem notPower_K {top bot : UList} (s : Sym) (hs : s ≠ c!"K")
    (h1 : net (fun x => baseWeight c!"K" (stemOf x)) top bot ≠ 0)
    (h2 : net (fun x => baseWeight s (stemOf x)) top bot ≠ 0) : NotPower top bot := by
  intro r e
  have key : ∀ x, baseWeight c!"K" x = if x = c!"K" then 1 else 0 := by
    intro x
    simp only [baseWeight]
    split_ifs <;> simp_all
  by_cases hr : stemOf r = c!"K"
  · refine ⟨_, formal_base s, ?_⟩
    have : baseWeight s (stemOf r) = 0 := by
      rw [hr, baseWeight_base (by decide)]; simp [Ne.symm hs]
    simpa [this] using h2
  · refine ⟨_, formal_base c!"K", ?_⟩
    simpa [key, hr] using h1

/-- The Graetz side conditions in SI base units. -/
example : NotPower ([⟨c!"J", 1⟩] ++ [⟨c!"m", 1⟩]) [⟨c!"kg", 1⟩, ⟨c!"K", 1⟩] ∧
    NotPower ([⟨c!"J", 1⟩] ++ [⟨c!"m", 1⟩] ++ [⟨c!"m", 1⟩]) [⟨c!"kg", 1⟩, ⟨c!"K", 1⟩] ∧
    NotPower ([⟨c!"W", 1⟩] ++ [⟨c!"m", 1⟩]) [⟨c!"m", 1⟩, ⟨c!"K", 1⟩] :=
  ⟨notPower_K c!"m" (by decide) (by decide +kernel) (by decide +kernel),
   notPower_K c!"m" (by decide) (by decide +kernel) (by decide +kernel),
   notPower_K c!"kg" (by decide) (by decide +kernel) (by decide +kernel)⟩

/-! ### In SI units, and the effect of a prefix -/

theorem C49_reynolds_SI (rho v L mu : ℝ) (h : mu ≠ 0) :
    reynolds (densSI rho) (velSI v) (lenSI L) (viscSI mu) = pnum (rho * v * L / mu) := by
  units_eval [reynolds, densSI, velSI, lenSI, viscSI, h]
  exact okNum_congr (by ring)

/-- The prefix of a length is ignored. -/
theorem C49_reynolds_cm (rho v L mu : ℝ) (h : mu ≠ 0) :
    reynolds (densSI rho) (velSI v) (qU .length L c!"cm") (viscSI mu) = pnum (rho * v * L / mu) := by
  units_eval [reynolds, densSI, velSI, lenSI, viscSI, h]
  exact okNum_congr (by ring)

theorem C49_reynolds_false : ¬ ∀ rho v L mu : ℝ, 0 < rho → 0 < v → 0 < L → 0 < mu →
    reynolds (densSI rho) (velSI v) (qU .length L c!"cm") (viscSI mu) =
      reynolds (densSI rho) (velSI v) (lenSI (L / 100)) (viscSI mu) := by
  intro h
  have h1 := h 1 1 1 1 one_pos one_pos one_pos one_pos
  rw [C49_reynolds_cm 1 1 1 1 one_ne_zero, C49_reynolds_SI 1 1 _ 1 one_ne_zero] at h1
  simp [pnum] at h1

theorem C49_biot_SI (h L k : ℝ) (hk : k ≠ 0) : biot (htcSI h) (lenSI L) (condSI k) = pnum (h * L / k) := by
  units_eval [biot, htcSI, lenSI, condSI, hk]
  exact okNum_congr (by ring)

theorem C49_biot_cm (h L k : ℝ) (hk : k ≠ 0) :
    biot (htcSI h) (qU .length L c!"cm") (condSI k) = pnum (h * L / k) := by
  units_eval [biot, htcSI, condSI, hk]
  exact okNum_congr (by ring)

theorem C49_biot_false : ¬ ∀ h L k : ℝ, 0 < h → 0 < L → 0 < k →
    biot (htcSI h) (qU .length L c!"cm") (condSI k) = biot (htcSI h) (lenSI (L / 100)) (condSI k) := by
  intro h
  have h1 := h 1 1 1 one_pos one_pos one_pos
  rw [C49_biot_cm 1 1 1 one_ne_zero, C49_biot_SI 1 _ 1 one_ne_zero] at h1
  simp [pnum] at h1

theorem C49_gretz_SI (d l cp cl rho v k : ℝ) (hk : k ≠ 0) (hl : l ≠ 0) :
    gretz (lenSI d) (lenSI l) (cpSI cp) (lenSI cl) (densSI rho) (velSI v) (condSI k) =
      pnum (cp * d * cl * rho * v / (k * l)) := by
  units_eval [gretz, lenSI, cpSI, densSI, velSI, condSI, hk, hl]
  exact okNum_congr (by ring)

theorem C49_gretz_cm (d l cp cl rho v k : ℝ) (hk : k ≠ 0) (hl : l ≠ 0) :
    gretz (qU .length d c!"cm") (lenSI l) (cpSI cp) (lenSI cl) (densSI rho) (velSI v) (condSI k) =
      pnum (cp * d * cl * rho * v / (k * l)) := by
  units_eval [gretz, lenSI, cpSI, densSI, velSI, condSI, hk, hl]
  exact okNum_congr (by ring)

theorem C49_gretz_false : ¬ ∀ d l cp cl rho v k : ℝ, 0 < d → 0 < l → 0 < cp → 0 < cl → 0 < rho → 0 < v → 0 < k →
    gretz (qU .length d c!"cm") (lenSI l) (cpSI cp) (lenSI cl) (densSI rho) (velSI v) (condSI k) =
      gretz (lenSI (d / 100)) (lenSI l) (cpSI cp) (lenSI cl) (densSI rho) (velSI v) (condSI k) := by
  intro h
  have h1 := h 1 1 1 1 1 1 1 one_pos one_pos one_pos one_pos one_pos one_pos one_pos
  rw [C49_gretz_cm 1 1 1 1 1 1 1 one_ne_zero one_ne_zero, C49_gretz_SI _ 1 1 1 1 1 1 one_ne_zero one_ne_zero] at h1
  simp [pnum] at h1

/-- `Gravity(g, "m/s^2")`. -/
def gravSI (g : ℝ) : PyM (Val ℝ) := qM c!"Gravity" g c!"m/s^2"
/-- `Temperature(b, "K", -1)`, as in the documentation of grashof. -/
def betaSI (b : ℝ) : PyM (Val ℝ) := qU .temperature b c!"K" (-1)

theorem C49_grashof_SI (g b t2 t1 L rho mu : ℝ) (h : mu ≠ 0) :
    grashof (gravSI g) (betaSI b) (tempSI t2) (tempSI t1) (lenSI L) (densSI rho) (viscSI mu) =
      pnum (L ^ 3 * rho ^ 2 * b * (t2 - t1) * g / mu ^ 2) := by
  units_eval [grashof, gravSI, betaSI, tempSI, lenSI, densSI, viscSI, h]
  exact okNum_congr (by ring)

theorem C49_grashof_cm (g b t2 t1 L rho mu : ℝ) (h : mu ≠ 0) :
    grashof (gravSI g) (betaSI b) (tempSI t2) (tempSI t1) (qU .length L c!"cm") (densSI rho) (viscSI mu) =
      pnum (L ^ 3 * rho ^ 2 * b * (t2 - t1) * g / mu ^ 2) := by
  units_eval [grashof, gravSI, betaSI, tempSI, densSI, viscSI, h]
  exact okNum_congr (by ring)

theorem C49_grashof_false : ¬ ∀ g b t2 t1 L rho mu : ℝ, 0 < g → 0 < b → t1 < t2 → 0 < L → 0 < rho → 0 < mu →
    grashof (gravSI g) (betaSI b) (tempSI t2) (tempSI t1) (qU .length L c!"cm") (densSI rho) (viscSI mu) =
      grashof (gravSI g) (betaSI b) (tempSI t2) (tempSI t1) (lenSI (L / 100)) (densSI rho) (viscSI mu) := by
  intro h
  have h1 := h 1 1 1 0 1 1 1 one_pos one_pos one_pos one_pos one_pos one_pos
  rw [C49_grashof_cm 1 1 1 0 1 1 1 one_ne_zero, C49_grashof_SI 1 1 1 0 _ 1 1 one_ne_zero] at h1
  simp [pnum] at h1
  norm_num at h1

end Verif
