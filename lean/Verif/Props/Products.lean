import Verif.Lemmas.Construct

/-! # C01-C05: products and quotients keep the physical magnitude -/

namespace Verif

/-! ## C01: compound times compound -/

/-- The product always exists, is a `MultiUnit` without prefixes, and has the product magnitude. -/
theorem C01_mul_magnitude (a b : MultiV ℝ) (ha : a.Genuine) (hb : b.Genuine) :
    ∃ c : MultiV ℝ, Val.mul (.multi a) (.multi b) = .ok (.multi c) ∧ c.cls = .multi ∧ c.Plain ∧
      ∀ ρ, Coherent ρ → c.mag ρ = a.mag ρ * b.mag ρ := by
  obtain ⟨t, bo, e, -, h1, h2, h3⟩ := reduce_full true true
    (wellPrefixed_append ha.1 hb.1) (wellPrefixed_append ha.2 hb.2)
  refine ⟨⟨.multi, a.value * b.value * (prefixProd (a.top ++ b.top) / prefixProd (a.bot ++ b.bot)), t, bo⟩,
    ?_, rfl, ⟨h1, h2⟩, fun ρ hρ => ?_⟩
  · simp only [Val.mul, multiMul, multiMulMulti, e]
  · simp only [MultiV.mag]
    rw [h3 ρ hρ]
    simp only [mag, lsize_append]
    have := (lsize_pos hρ.pos a.bot).ne'
    have := (lsize_pos hρ.pos b.bot).ne'
    field_simp

/-- 2 kPa·m² times 3 mol/min: both quantities carry genuine prefixes. -/
example : (⟨.multi, 2, [⟨c!"kPa", 1⟩, ⟨c!"m", 2⟩], []⟩ : MultiV ℝ).Genuine ∧
    (⟨.multi, 3, [⟨c!"mol", 1⟩], [⟨c!"min", 1⟩]⟩ : MultiV ℝ).Genuine := by decide

/-- The hypothesis on sizes is satisfiable. -/
example : ∃ ρ, Coherent ρ := ⟨_, siSize_coherent⟩

/-- What the theorem says about one product, computed. -/
example : Val.mul (.multi (⟨.multi, 2, [⟨c!"kPa", 1⟩], [⟨c!"s", 1⟩]⟩ : MultiV ℚ))
    (.multi ⟨.multi, 3, [⟨c!"s", 2⟩], [⟨c!"kg", 1⟩]⟩) =
    .ok (.multi ⟨.multi, 6000, [], [⟨c!"s", 1⟩, ⟨c!"m", 1⟩]⟩) := by decide +kernel

/-- Multiplication is commutative as a physical quantity. -/
theorem C01_mul_comm_magnitude (a b c d : MultiV ℝ) (ha : a.Genuine) (hb : b.Genuine)
    (hc : Val.mul (.multi a) (.multi b) = .ok (.multi c))
    (hd : Val.mul (.multi b) (.multi a) = .ok (.multi d)) (ρ : Sym → ℝ) (hρ : Coherent ρ) :
    c.mag ρ = d.mag ρ := by
  obtain ⟨c', e, -, -, h⟩ := C01_mul_magnitude a b ha hb
  obtain ⟨d', e', -, -, h'⟩ := C01_mul_magnitude b a hb ha
  rw [hc] at e; cases e
  rw [hd] at e'; cases e'
  rw [h ρ hρ, h' ρ hρ, mul_comm]

/-- Products can be extended and multiplication is associative as a physical quantity. -/
theorem C01_mul_assoc_magnitude (a b c : MultiV ℝ) (ha : a.Genuine) (hb : b.Genuine) (hc : c.Genuine) :
    ∃ ab bc l r : MultiV ℝ, Val.mul (.multi a) (.multi b) = .ok (.multi ab) ∧
      Val.mul (.multi b) (.multi c) = .ok (.multi bc) ∧
      Val.mul (.multi ab) (.multi c) = .ok (.multi l) ∧
      Val.mul (.multi a) (.multi bc) = .ok (.multi r) ∧
      ∀ ρ, Coherent ρ → l.mag ρ = r.mag ρ := by
  obtain ⟨ab, e1, -, p1, h1⟩ := C01_mul_magnitude a b ha hb
  obtain ⟨bc, e2, -, p2, h2⟩ := C01_mul_magnitude b c hb hc
  obtain ⟨l, e3, -, -, h3⟩ := C01_mul_magnitude ab c ⟨p1.1.well, p1.2.well⟩ hc
  obtain ⟨r, e4, -, -, h4⟩ := C01_mul_magnitude a bc ha ⟨p2.1.well, p2.2.well⟩
  refine ⟨ab, bc, l, r, e1, e2, e3, e4, fun ρ hρ => ?_⟩
  rw [h3 ρ hρ, h4 ρ hρ, h1 ρ hρ, h2 ρ hρ, mul_assoc]

/-- Genuineness is needed: `mile` is split into `m` and `ile`, so a product of two quantities loses a factor 1000
(for the SI sizes). -/
theorem C01_mul_needs_genuine : ¬ ∀ a b : MultiV ℚ, ∃ c : MultiV ℚ,
    Val.mul (.multi a) (.multi b) = .ok (.multi c) ∧
      (∀ u ∈ c.top, u.exp = 1) ∧ c.bot = [] ∧
      c.value * (c.top.map fun u => siSize u.unit).prod =
      (a.value * (a.top.map fun u => siSize u.unit).prod) *
        (b.value * (b.top.map fun u => siSize u.unit).prod) := by
  intro h
  obtain ⟨c, hc, -, -, hm⟩ := h ⟨.multi, 1, [⟨c!"mile", 1⟩], []⟩ ⟨.multi, 1, [⟨c!"kg", 1⟩], []⟩
  have e : Val.mul (.multi (⟨.multi, 1, [⟨c!"mile", 1⟩], []⟩ : MultiV ℚ))
      (.multi ⟨.multi, 1, [⟨c!"kg", 1⟩], []⟩) =
      .ok (.multi ⟨.multi, 1 / 1000, [⟨c!"ile", 1⟩, ⟨c!"kg", 1⟩], []⟩) := by decide +kernel
  rw [e] at hc; cases hc
  revert hm
  decide +kernel

/-! ## C02: compound divided by compound -/

/-- The quotient exists unless the divisor is zero and has the quotient magnitude. -/
theorem C02_div_magnitude (a b : MultiV ℝ) (ha : a.Genuine) (hb : b.Genuine) (hv : b.value ≠ 0) :
    ∃ r, Val.div (.multi a) (.multi b) = .ok r ∧
      ∀ ρ, Coherent ρ → HasMag ρ r (a.mag ρ / b.mag ρ) := by
  obtain ⟨t, bo, e, -, h1, h2, h3⟩ := reduce_full true true
    (wellPrefixed_append ha.1 hb.2) (wellPrefixed_append ha.2 hb.1)
  by_cases hs : a.top = b.top ∧ a.bot = b.bot
  · refine ⟨.num (a.value / b.value), ?_, fun ρ hρ => ?_⟩
    · simp [Val.div, multiDiv, multiDivMulti, hs, pyDiv_ne hv]
    · have : a.mag ρ / b.mag ρ = a.value / b.value := by
        simp only [MultiV.mag, mag, hs.1, hs.2]
        have := (lsize_pos hρ.pos b.bot).ne'
        have := (lsize_pos hρ.pos b.top).ne'
        field_simp
      rw [this]; exact .num _
  · refine ⟨packDiv (a.value / b.value * (prefixProd (a.top ++ b.bot) / prefixProd (a.bot ++ b.top)))
      t bo, ?_, fun ρ hρ => ?_⟩
    · simp only [Val.div, multiDiv, multiDivMulti, hs, if_false, e, pyDiv_ne hv]
    · have : a.mag ρ / b.mag ρ = mag ρ (a.value / b.value) (a.top ++ b.bot) (a.bot ++ b.top) := by
        simp only [MultiV.mag, mag, lsize_append]
        have := (lsize_pos hρ.pos a.bot).ne'
        have := (lsize_pos hρ.pos b.bot).ne'
        have := (lsize_pos hρ.pos b.top).ne'
        field_simp
      rw [this, ← h3 ρ hρ]
      exact packDiv_mag hρ.pos _ _ _

example : (⟨.multi, 10, [⟨c!"kJ", 1⟩], [⟨c!"mol", 1⟩, ⟨c!"K", 1⟩]⟩ : MultiV ℝ).Genuine ∧
    (⟨.multi, 5, [⟨c!"cm", 3⟩], [⟨c!"mol", 1⟩]⟩ : MultiV ℝ).Genuine ∧ (5 : ℝ) ≠ 0 :=
  ⟨by decide, by decide, by norm_num⟩

/-- Division undoes multiplication, as a physical quantity. -/
theorem C02_mul_div_cancel (a b c : MultiV ℝ) (ha : a.Genuine) (hb : b.Genuine) (hv : b.value ≠ 0)
    (hc : Val.mul (.multi a) (.multi b) = .ok (.multi c)) :
    ∃ r, Val.div (.multi c) (.multi b) = .ok r ∧ ∀ ρ, Coherent ρ → HasMag ρ r (a.mag ρ) := by
  obtain ⟨c', e, -, p, h⟩ := C01_mul_magnitude a b ha hb
  rw [hc] at e; cases e
  obtain ⟨r, e2, h2⟩ := C02_div_magnitude c b ⟨p.1.well, p.2.well⟩ hb hv
  refine ⟨r, e2, fun ρ hρ => ?_⟩
  have h3 := h2 ρ hρ
  rw [h ρ hρ] at h3
  have hne : b.mag ρ ≠ 0 := by
    simp only [MultiV.mag, mag]
    exact mul_ne_zero hv (div_pos (lsize_pos hρ.pos _) (lsize_pos hρ.pos _)).ne'
  rwa [mul_div_cancel_right₀ _ hne] at h3

/-- A zero divisor raises ZeroDivisionError, never returns. -/
theorem C02_div_zero (a b : MultiV ℝ) (ha : a.Genuine) (hb : b.Genuine) (hv : b.value = 0) :
    Val.div (.multi a) (.multi b) = .error .zeroDivision := by
  obtain ⟨t, bo, e, -⟩ := reduce_full true true
    (wellPrefixed_append ha.1 hb.2) (wellPrefixed_append ha.2 hb.1)
  simp only [Val.div, multiDiv, multiDivMulti]
  split
  · simp [pyDiv, hv]
  · simp [e, pyDiv, hv]

/-! ## C03: compound times simple -/

/-- Exact value of `a*u` and `u*a`: the product magnitude divided by the product of all prefixes involved (the code
computes that factor and forgets it).  Missing for the full claim: the factor. -/
theorem C03_mul_unit_partial (a : MultiV ℝ) (u : UnitV ℝ) (ha : a.Genuine) (hu : WellPrefixed u.unit) :
    ∃ r, Val.mul (.multi a) (.unit u) = .ok r ∧ Val.mul (.unit u) (.multi a) = .ok r ∧
      ∀ ρ, Coherent ρ → HasMag ρ r
        (a.mag ρ * u.mag ρ / (prefixProd (a.top ++ [⟨u.unit, u.exp⟩]) / prefixProd a.bot)) := by
  obtain ⟨t, bo, e, -, h1, h2, h3⟩ := reduce_full true true
    (wellPrefixed_append ha.1 (wellPrefixed_single (e := u.exp) hu)) ha.2
  refine ⟨packMul (u.value * a.value) t bo, ?_, ?_, fun ρ hρ => ?_⟩
  · simp only [Val.mul, multiMul, multiMulUnit, e]
  · simp only [Val.mul, unitMul, multiMulUnit, e]
  · have hf : 0 < prefixProd (a.top ++ [⟨u.unit, u.exp⟩]) / prefixProd a.bot :=
      div_pos (prefixProd_pos _) (prefixProd_pos _)
    have : a.mag ρ * u.mag ρ / (prefixProd (a.top ++ [⟨u.unit, u.exp⟩]) / prefixProd a.bot) =
        mag ρ (u.value * a.value) t bo := by
      rw [div_eq_iff hf.ne']
      have h4 := h3 ρ hρ (u.value * a.value)
      have h5 : ∀ x y, mag ρ (x * y) t bo = mag ρ x t bo * y := fun x y => by simp only [mag]; ring
      rw [h5] at h4
      rw [h4]
      simp only [MultiV.mag, UnitV.mag, mag, lsize_append, lsize_single]; ring
    rw [this]; exact packMul_mag _ _ _

/-- Without prefixes the claim holds exactly. -/
theorem C03_mul_unit_plain_partial (a : MultiV ℝ) (u : UnitV ℝ) (ha : a.Plain) (hu : Unprefixed u.unit) :
    ∃ r, Val.mul (.multi a) (.unit u) = .ok r ∧ Val.mul (.unit u) (.multi a) = .ok r ∧
      ∀ ρ, Coherent ρ → HasMag ρ r (a.mag ρ * u.mag ρ) := by
  obtain ⟨r, e1, e2, h⟩ := C03_mul_unit_partial a u ⟨ha.1.well, ha.2.well⟩ hu.well
  refine ⟨r, e1, e2, fun ρ hρ => ?_⟩
  have hl : UnprefixedList (a.top ++ [⟨u.unit, u.exp⟩]) := by
    intro v hv
    rcases List.mem_append.1 hv with hv | hv
    · exact ha.1 v hv
    · rw [List.mem_singleton] at hv; subst hv; exact hu
  simpa [prefixProd_unprefixed hl, prefixProd_unprefixed ha.2] using h ρ hρ

example : (⟨.multi, 4, [⟨c!"J", 1⟩], [⟨c!"mol", 1⟩, ⟨c!"K", 1⟩]⟩ : MultiV ℝ).Plain ∧ Unprefixed c!"K" := by
  decide

/-- The full claim is false: 1 cm/s times 1 s. -/
theorem C03_mul_unit_false : ¬ ∀ (a : MultiV ℝ) (u : UnitV ℝ), a.Genuine → WellPrefixed u.unit →
    ∃ r, Val.mul (.multi a) (.unit u) = .ok r ∧
      ∀ ρ, Coherent ρ → HasMag ρ r (a.mag ρ * u.mag ρ) := by
  intro h
  let a : MultiV ℝ := ⟨.multi, 1, [⟨c!"cm", 1⟩], [⟨c!"s", 1⟩]⟩
  let u : UnitV ℝ := ⟨.unit, 1, c!"s", 1⟩
  have ha : a.Genuine := by decide
  have hu : WellPrefixed u.unit := by decide
  obtain ⟨r, e, h1⟩ := h a u ha hu
  obtain ⟨r', e', -, h2⟩ := C03_mul_unit_partial a u ha hu
  rw [e] at e'; cases e'
  have h3 := (h1 _ siSize_coherent).unique (h2 _ siSize_coherent)
  have hp : prefixProd (a.top ++ [⟨u.unit, u.exp⟩]) / prefixProd a.bot = 1 / 100 := by
    have e1 : prefixOf c!"cm" = 1 / 100 := by decide +kernel
    have e2 : prefixOf c!"s" = 1 := by decide +kernel
    simp [prefixProd, a, u, e1, e2]
  have hpos := siSize_coherent.pos
  have hm : 0 < a.mag (fun s => (siSize s : ℝ)) * u.mag (fun s => (siSize s : ℝ)) := by
    refine mul_pos ?_ ?_
    · exact mul_pos one_pos (div_pos (lsize_pos hpos _) (lsize_pos hpos _))
    · exact mul_pos one_pos (Real.rpow_pos_of_pos (hpos _) _)
  rw [hp] at h3
  linarith

/-! ## C04: quotients of compound and simple quantities -/

/-- Compound divided by simple. -/
theorem C04_div_by_unit (a : MultiV ℝ) (u : UnitV ℝ) (ha : a.Genuine) (hu : WellPrefixed u.unit)
    (hv : u.value ≠ 0) :
    ∃ r, Val.div (.multi a) (.unit u) = .ok r ∧
      ∀ ρ, Coherent ρ → HasMag ρ r (a.mag ρ / u.mag ρ) := by
  obtain ⟨t, bo, e, -, h1, h2, h3⟩ := reduce_full false true ha.1
    (wellPrefixed_append ha.2 (wellPrefixed_single (e := u.exp) hu))
  refine ⟨packDiv (a.value / u.value * (prefixProd a.top / prefixProd (a.bot ++ [⟨u.unit, u.exp⟩]))) t bo,
    ?_, fun ρ hρ => ?_⟩
  · simp only [Val.div, multiDiv, multiDivUnit, e, pyDiv_ne hv]
  · have : a.mag ρ / u.mag ρ = mag ρ (a.value / u.value) a.top (a.bot ++ [⟨u.unit, u.exp⟩]) := by
      simp only [MultiV.mag, UnitV.mag, mag, lsize_append, lsize_single]
      have := (lsize_pos hρ.pos a.bot).ne'
      have := (Real.rpow_pos_of_pos (hρ.pos u.unit) (u.exp : ℝ)).ne'
      field_simp
    rw [this, ← h3 ρ hρ]
    exact packDiv_mag hρ.pos _ _ _

example : (⟨.multi, 4, [⟨c!"kJ", 1⟩], [⟨c!"mol", 1⟩, ⟨c!"K", 1⟩]⟩ : MultiV ℝ).Genuine ∧
    WellPrefixed c!"mm" ∧ (3 : ℝ) ≠ 0 := ⟨by decide, by decide, by norm_num⟩

/-- Simple divided by compound: exact up to the forgotten product of prefixes. -/
theorem C04_unit_div_partial (a : MultiV ℝ) (u : UnitV ℝ) (ha : a.Genuine) (hu : WellPrefixed u.unit)
    (hv : a.value ≠ 0) :
    ∃ r, Val.div (.unit u) (.multi a) = .ok r ∧
      ∀ ρ, Coherent ρ → HasMag ρ r
        (u.mag ρ / a.mag ρ / (prefixProd (a.bot ++ [⟨u.unit, u.exp⟩]) / prefixProd a.top)) := by
  obtain ⟨t, bo, e, -, h1, h2, h3⟩ := reduce_full true false
    (wellPrefixed_append ha.2 (wellPrefixed_single (e := u.exp) hu)) ha.1
  refine ⟨packDiv (u.value / a.value) t bo, ?_, fun ρ hρ => ?_⟩
  · simp only [Val.div, unitDiv, unitDivMulti, e, pyDiv_ne hv]
  · have hf : 0 < prefixProd (a.bot ++ [⟨u.unit, u.exp⟩]) / prefixProd a.top :=
      div_pos (prefixProd_pos _) (prefixProd_pos _)
    have : u.mag ρ / a.mag ρ / (prefixProd (a.bot ++ [⟨u.unit, u.exp⟩]) / prefixProd a.top) =
        mag ρ (u.value / a.value) t bo := by
      rw [div_eq_iff hf.ne']
      have h4 := h3 ρ hρ (u.value / a.value)
      have h5 : ∀ x y, mag ρ (x * y) t bo = mag ρ x t bo * y := fun x y => by simp only [mag]; ring
      rw [h5] at h4
      rw [h4]
      simp only [MultiV.mag, UnitV.mag, mag, lsize_append, lsize_single]
      have := (lsize_pos hρ.pos a.bot).ne'
      have := (lsize_pos hρ.pos a.top).ne'
      field_simp
    rw [this]; exact packDiv_mag hρ.pos _ _ _

/-- Without prefixes the claim for simple divided by compound holds exactly. -/
theorem C04_unit_div_plain_partial (a : MultiV ℝ) (u : UnitV ℝ) (ha : a.Plain) (hu : Unprefixed u.unit)
    (hv : a.value ≠ 0) :
    ∃ r, Val.div (.unit u) (.multi a) = .ok r ∧
      ∀ ρ, Coherent ρ → HasMag ρ r (u.mag ρ / a.mag ρ) := by
  obtain ⟨r, e1, h⟩ := C04_unit_div_partial a u ⟨ha.1.well, ha.2.well⟩ hu.well hv
  refine ⟨r, e1, fun ρ hρ => ?_⟩
  have hl : UnprefixedList (a.bot ++ [⟨u.unit, u.exp⟩]) := by
    intro v hv
    rcases List.mem_append.1 hv with hv | hv
    · exact ha.2 v hv
    · rw [List.mem_singleton] at hv; subst hv; exact hu
  simpa [prefixProd_unprefixed hl, prefixProd_unprefixed ha.1] using h ρ hρ

example : (⟨.multi, 4, [⟨c!"W", 1⟩], [⟨c!"m", 1⟩, ⟨c!"K", 1⟩]⟩ : MultiV ℝ).Plain ∧ Unprefixed c!"in" ∧
    (4 : ℝ) ≠ 0 := ⟨by decide, by decide, by norm_num⟩

/-- The full claim is false: 1 s divided by 1 s/cm. -/
theorem C04_unit_div_false : ¬ ∀ (a : MultiV ℝ) (u : UnitV ℝ), a.Genuine → WellPrefixed u.unit →
    a.value ≠ 0 → ∃ r, Val.div (.unit u) (.multi a) = .ok r ∧
      ∀ ρ, Coherent ρ → HasMag ρ r (u.mag ρ / a.mag ρ) := by
  intro h
  let a : MultiV ℝ := ⟨.multi, 1, [⟨c!"s", 1⟩], [⟨c!"cm", 1⟩]⟩
  let u : UnitV ℝ := ⟨.unit, 1, c!"s", 1⟩
  have ha : a.Genuine := by decide
  have hu : WellPrefixed u.unit := by decide
  have hv : a.value ≠ 0 := one_ne_zero
  obtain ⟨r, e, h1⟩ := h a u ha hu hv
  obtain ⟨r', e', h2⟩ := C04_unit_div_partial a u ha hu hv
  rw [e] at e'; cases e'
  have h3 := (h1 _ siSize_coherent).unique (h2 _ siSize_coherent)
  have hp : prefixProd (a.bot ++ [⟨u.unit, u.exp⟩]) / prefixProd a.top = 1 / 100 := by
    have e1 : prefixOf c!"cm" = 1 / 100 := by decide +kernel
    have e2 : prefixOf c!"s" = 1 := by decide +kernel
    simp [prefixProd, a, u, e1, e2]
  have hpos := siSize_coherent.pos
  have hm : 0 < u.mag (fun s => (siSize s : ℝ)) / a.mag (fun s => (siSize s : ℝ)) := by
    refine div_pos ?_ ?_
    · exact mul_pos one_pos (Real.rpow_pos_of_pos (hpos _) _)
    · exact mul_pos one_pos (div_pos (lsize_pos hpos _) (lsize_pos hpos _))
  rw [hp] at h3
  linarith

/-! ## C05: simple with simple -/

/-- Quotients of simple quantities: all exponents. -/
theorem C05_unit_div_unit (u w : UnitV ℝ) (hu : u.Constructed) (hv : w.value ≠ 0) :
    ∃ r, Val.div (.unit u) (.unit w) = .ok r ∧
      ∀ ρ : Sym → ℝ, (∀ s, 0 < ρ s) → HasMag ρ r (u.mag ρ / w.mag ρ) := by
  simp only [Val.div, unitDiv, pyDiv_ne hv]
  have key : ∀ ρ : Sym → ℝ, (∀ s, 0 < ρ s) → u.unit = w.unit → u.mag ρ / w.mag ρ =
      u.value / w.value * ρ u.unit ^ ((u.exp - w.exp : ℚ) : ℝ) := by
    intro ρ hρ e
    simp only [UnitV.mag, e]
    rw [mul_div_mul_comm, ← Real.rpow_sub (hρ _)]; push_cast; rfl
  by_cases e : u.unit = w.unit
  · simp only [e, if_true]
    by_cases h0 : u.exp - w.exp = 0
    · refine ⟨.num (u.value / w.value), by simp only [h0, if_true], fun ρ hρ => ?_⟩
      rw [key ρ hρ e, h0]; simpa using HasMag.num _
    · refine ⟨.unit ⟨u.cls, u.value / w.value, u.unit, u.exp - w.exp⟩, ?_, fun ρ hρ => ?_⟩
      · simp only [h0, if_false, ← e, hu.rebuild, wrapUnit]
      · rw [key ρ hρ e]; exact .unit _
  · refine ⟨.multi ⟨.multi, u.value / w.value, [⟨u.unit, u.exp⟩], [⟨w.unit, w.exp⟩]⟩,
      by simp only [e, if_false], fun ρ hρ => ?_⟩
    have : u.mag ρ / w.mag ρ =
        (⟨.multi, u.value / w.value, [⟨u.unit, u.exp⟩], [⟨w.unit, w.exp⟩]⟩ : MultiV ℝ).mag ρ := by
      simp only [UnitV.mag, MultiV.mag, mag, lsize_single]
      rw [mul_div_mul_comm]
    rw [this]; exact .multi _

example : (⟨.length, 6, c!"m", 3⟩ : UnitV ℝ).Constructed ∧ (2 : ℝ) ≠ 0 :=
  ⟨⟨6, c!"m", 3, rfl⟩, by norm_num⟩

/-- Products of simple quantities, when the classes and units agree or both exponents are 1. -/
theorem C05_unit_mul_unit_partial (u w : UnitV ℝ) (hu : u.Constructed)
    (h : (u.cls = w.cls ∧ u.unit = w.unit) ∨ (u.exp = 1 ∧ w.exp = 1)) :
    ∃ r, Val.mul (.unit u) (.unit w) = .ok r ∧
      ∀ ρ : Sym → ℝ, (∀ s, 0 < ρ s) → HasMag ρ r (u.mag ρ * w.mag ρ) := by
  simp only [Val.mul, unitMul]
  by_cases e : u.cls = w.cls ∧ u.unit = w.unit
  · refine ⟨.unit ⟨u.cls, u.value * w.value, u.unit, u.exp + w.exp⟩, ?_, fun ρ hρ => ?_⟩
    · simp only [if_pos e, hu.rebuild, wrapUnit]
    · have : u.mag ρ * w.mag ρ =
          (⟨u.cls, u.value * w.value, u.unit, u.exp + w.exp⟩ : UnitV ℝ).mag ρ := by
        simp only [UnitV.mag, ← e.2]
        push_cast
        rw [Real.rpow_add (hρ _)]; ring
      rw [this]; exact .unit _
  · obtain ⟨h1, h2⟩ := h.resolve_left e
    refine ⟨_, by rw [if_neg e], fun ρ hρ => ?_⟩
    have : u.mag ρ * w.mag ρ =
        (⟨.multi, u.value * w.value, [⟨u.unit, 1⟩, ⟨w.unit, 1⟩], []⟩ : MultiV ℝ).mag ρ := by
      simp [UnitV.mag, MultiV.mag, mag, lsize, h1, h2]; ring
    rw [this]; exact .multi _

example : (⟨.length, 6, c!"m", 3⟩ : UnitV ℝ).Constructed ∧
    ((UCls.length = UCls.length ∧ c!"m" = c!"m") ∨ ((3 : ℚ) = 1 ∧ (2 : ℚ) = 1)) :=
  ⟨⟨6, c!"m", 3, rfl⟩, .inl ⟨rfl, rfl⟩⟩

/-- The full claim is false: the product of 1 m² and 1 s is 1 m·s. -/
theorem C05_unit_mul_unit_false : ¬ ∀ u w : UnitV ℝ, u.Constructed → w.Constructed →
    ∃ r, Val.mul (.unit u) (.unit w) = .ok r ∧
      ∀ ρ : Sym → ℝ, (∀ s, 0 < ρ s) → HasMag ρ r (u.mag ρ * w.mag ρ) := by
  intro h
  obtain ⟨r, e, h1⟩ := h ⟨.length, 1, c!"m", 2⟩ ⟨.time, 1, c!"s", 1⟩ ⟨1, c!"m", 2, rfl⟩ ⟨1, c!"s", 1, rfl⟩
  have e' : Val.mul (.unit (⟨.length, 1, c!"m", 2⟩ : UnitV ℝ)) (.unit ⟨.time, 1, c!"s", 1⟩) =
      .ok (.multi ⟨.multi, 1 * 1, [⟨c!"m", 1⟩, ⟨c!"s", 1⟩], []⟩) := by
    simp [Val.mul, unitMul]
  rw [e'] at e; cases e
  have h2 := (h1 (fun _ => 2) (fun _ => two_pos)).unique (.multi _)
  simp only [UnitV.mag, MultiV.mag, mag, lsize, List.map_cons, List.map_nil, List.prod_cons, List.prod_nil] at h2
  norm_num at h2

end Verif
