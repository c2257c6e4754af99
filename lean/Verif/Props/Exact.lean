import Verif.Props.Products
import Verif.Props.Scaling
import Verif.Props.Sums
import Verif.Props.SimpleConv

/-!
# Exactly when the simple operators are right

For the claims that fail in general (C03 to C06, C08, C23) these theorems say for which operands they hold: not only is
the listed condition sufficient, outside of it the result is always wrong.
-/

namespace Verif

theorem mag_ne {ρ : Sym → ℝ} (hρ : ∀ s, 0 < ρ s) (a : MultiV ℝ) (h : a.value ≠ 0) : a.mag ρ ≠ 0 := by
  simp only [MultiV.mag, mag]
  exact mul_ne_zero h (div_pos (lsize_pos hρ _) (lsize_pos hρ _)).ne'

theorem umag_ne {ρ : Sym → ℝ} (hρ : ∀ s, 0 < ρ s) (u : UnitV ℝ) (h : u.value ≠ 0) : u.mag ρ ≠ 0 :=
  mul_ne_zero h (Real.rpow_pos_of_pos (hρ _) _).ne'

/-- A compound quantity times a simple one is right exactly when the prefixes of the two operands cancel. -/
theorem C03_mul_unit_exact (a : MultiV ℝ) (u : UnitV ℝ) (ha : a.Genuine) (hu : WellPrefixed u.unit)
    (va : a.value ≠ 0) (vu : u.value ≠ 0) :
    (∃ r, Val.mul (.multi a) (.unit u) = .ok r ∧ ∀ ρ, Coherent ρ → HasMag ρ r (a.mag ρ * u.mag ρ)) ↔
      prefixProd (a.top ++ [⟨u.unit, u.exp⟩]) = prefixProd a.bot := by
  obtain ⟨r, e, -, h⟩ := C03_mul_unit_partial a u ha hu
  have p1 := prefixProd_pos (a.top ++ [⟨u.unit, u.exp⟩])
  have p2 := prefixProd_pos a.bot
  constructor
  · rintro ⟨r', e', h'⟩
    rw [e] at e'; cases e'
    have h1 := (h _ siSize_coherent).unique (h' _ siSize_coherent)
    have h0 := mul_ne_zero (mag_ne siSize_coherent.pos a va) (umag_ne siSize_coherent.pos u vu)
    rw [div_eq_iff (div_pos p1 p2).ne'] at h1
    have h2 := mul_left_cancel₀ h0 ((mul_one _).trans h1)
    rw [eq_comm, div_eq_one_iff_eq p2.ne'] at h2
    exact h2
  · intro hp
    refine ⟨r, e, fun ρ hρ => ?_⟩
    have := h ρ hρ
    rwa [hp, div_self p2.ne', div_one] at this

/-- Both sides occur: 2 km/s times 3 s is wrong, 2 mm/ms times 3 ft is right. -/
example : (⟨.multi, 2, [⟨c!"km", 1⟩], [⟨c!"s", 1⟩]⟩ : MultiV ℝ).Genuine ∧ WellPrefixed c!"s" ∧
    (⟨.multi, 2, [⟨c!"mm", 1⟩], [⟨c!"ms", 1⟩]⟩ : MultiV ℝ).Genuine ∧ WellPrefixed c!"ft" := by decide

example : prefixProd ([⟨c!"mm", 1⟩] ++ [⟨c!"ft", 1⟩]) = prefixProd [⟨c!"ms", 1⟩] := by
  have e1 : prefixOf c!"mm" = 1 / 1000 := by decide +kernel
  have e2 : prefixOf c!"ms" = 1 / 1000 := by decide +kernel
  have e3 : prefixOf c!"ft" = 1 := by decide +kernel
  simp [prefixProd, e1, e2, e3]

/-- A simple quantity divided by a compound one is right exactly when the prefixes cancel. -/
theorem C04_unit_div_exact (a : MultiV ℝ) (u : UnitV ℝ) (ha : a.Genuine) (hu : WellPrefixed u.unit)
    (va : a.value ≠ 0) (vu : u.value ≠ 0) :
    (∃ r, Val.div (.unit u) (.multi a) = .ok r ∧ ∀ ρ, Coherent ρ → HasMag ρ r (u.mag ρ / a.mag ρ)) ↔
      prefixProd (a.bot ++ [⟨u.unit, u.exp⟩]) = prefixProd a.top := by
  obtain ⟨r, e, h⟩ := C04_unit_div_partial a u ha hu va
  have p1 := prefixProd_pos (a.bot ++ [⟨u.unit, u.exp⟩])
  have p2 := prefixProd_pos a.top
  constructor
  · rintro ⟨r', e', h'⟩
    rw [e] at e'; cases e'
    have h1 := (h _ siSize_coherent).unique (h' _ siSize_coherent)
    have h0 := div_ne_zero (umag_ne siSize_coherent.pos u vu) (mag_ne siSize_coherent.pos a va)
    rw [div_eq_iff (div_pos p1 p2).ne'] at h1
    have h2 := mul_left_cancel₀ h0 ((mul_one _).trans h1)
    rw [eq_comm, div_eq_one_iff_eq p2.ne'] at h2
    exact h2
  · intro hp
    refine ⟨r, e, fun ρ hρ => ?_⟩
    have := h ρ hρ
    rwa [hp, div_self p2.ne', div_one] at this

theorem two_rpow_inj {x y : ℝ} (h : (2 : ℝ) ^ x = 2 ^ y) : x = y :=
  (Real.rpow_right_inj (by norm_num) (by norm_num)).1 h

/-- The product of two simple quantities is right exactly when class and unit agree, or both exponents are one, or the
units agree and the exponents add up to two. -/
theorem C05_unit_mul_unit_exact (u w : UnitV ℝ) (hu : u.Constructed) (vu : u.value ≠ 0) (vw : w.value ≠ 0) :
    (∃ r, Val.mul (.unit u) (.unit w) = .ok r ∧ ∀ ρ : Sym → ℝ, (∀ s, 0 < ρ s) → HasMag ρ r (u.mag ρ * w.mag ρ)) ↔
      (u.cls = w.cls ∧ u.unit = w.unit) ∨ (u.exp = 1 ∧ w.exp = 1) ∨ (u.unit = w.unit ∧ u.exp + w.exp = 2) := by
  by_cases hsame : u.cls = w.cls ∧ u.unit = w.unit
  · simp only [hsame, and_self, true_or, iff_true]
    exact C05_unit_mul_unit_partial u w hu (.inl hsame)
  have hr : Val.mul (.unit u) (.unit w) = .ok (.multi ⟨.multi, u.value * w.value, [⟨u.unit, 1⟩, ⟨w.unit, 1⟩], []⟩) := by
    simp only [Val.mul, unitMul, if_neg hsame]
  have hmag : ∀ ρ : Sym → ℝ, (⟨.multi, u.value * w.value, [⟨u.unit, 1⟩, ⟨w.unit, 1⟩], []⟩ : MultiV ℝ).mag ρ =
      u.value * w.value * (ρ u.unit * ρ w.unit) := by
    intro ρ; simp [MultiV.mag, mag, lsize]
  have hprod : ∀ ρ : Sym → ℝ, u.mag ρ * w.mag ρ =
      u.value * w.value * (ρ u.unit ^ (u.exp : ℝ) * ρ w.unit ^ (w.exp : ℝ)) := by
    intro ρ; simp only [UnitV.mag]; ring
  constructor
  · rintro ⟨r, e, h⟩
    rw [hr] at e; cases e
    right
    have key : ∀ ρ : Sym → ℝ, (∀ s, 0 < ρ s) →
        ρ u.unit * ρ w.unit = ρ u.unit ^ (u.exp : ℝ) * ρ w.unit ^ (w.exp : ℝ) := by
      intro ρ hρ
      have := (h ρ hρ).unique (.multi _)
      rw [hmag, hprod] at this
      exact (mul_left_cancel₀ (mul_ne_zero vu vw) this).symm
    by_cases heq : u.unit = w.unit
    · right
      have := key (fun _ => 2) (fun _ => two_pos)
      refine ⟨heq, ?_⟩
      rw [← Real.rpow_add two_pos] at this
      have h2 : (2 : ℝ) ^ (2 : ℝ) = 2 ^ ((u.exp : ℝ) + w.exp) := by rw [← this]; norm_num
      have := two_rpow_inj h2
      exact_mod_cast this.symm
    · left
      have k1 := key (fun s => if s = u.unit then 2 else 1) (fun s => by split <;> norm_num)
      have k2 := key (fun s => if s = w.unit then 2 else 1) (fun s => by split <;> norm_num)
      simp only [if_true, if_neg (Ne.symm heq), if_neg heq, Real.one_rpow, mul_one, one_mul] at k1 k2
      have h1 : (1 : ℝ) = u.exp := two_rpow_inj (by rw [Real.rpow_one]; exact k1)
      have h2 : (1 : ℝ) = w.exp := two_rpow_inj (by rw [Real.rpow_one]; exact k2)
      exact ⟨by exact_mod_cast h1.symm, by exact_mod_cast h2.symm⟩
  · intro h
    refine ⟨_, hr, fun ρ hρ => ?_⟩
    suffices hs : u.mag ρ * w.mag ρ = _ by rw [hs]; exact .multi _
    rw [hmag, hprod]
    congr 1
    rcases h with h | ⟨h1, h2⟩ | ⟨h1, h2⟩
    · exact absurd h hsame
    · simp [h1, h2]
    · rw [h1, ← Real.rpow_add (hρ _)]
      have : (u.exp : ℝ) + w.exp = 2 := by exact_mod_cast h2
      rw [this, Real.rpow_two, sq]

/-- The third case occurs: an area of exponent 2 times a length of exponent 0. -/
example : (⟨.area, 3, c!"m", 2⟩ : UnitV ℝ).Constructed ∧ (2 : ℚ) + 0 = 2 := ⟨⟨3, c!"m", 2, by simp [mkUnit]⟩, by norm_num⟩

/-- Scaling a simple quantity is right exactly when its exponent is one. -/
theorem C06_scale_unit_exact (u : UnitV ℝ) (hu : u.Constructed) (x : ℝ) (vu : u.value ≠ 0) (hx : x ≠ 0) :
    (∃ r, Val.mul (.unit u) (.num x) = .ok r ∧ ∀ ρ : Sym → ℝ, (∀ s, 0 < ρ s) → HasMag ρ r (u.mag ρ * x)) ↔
      u.exp = 1 := by
  have hr := (C06_scale_unit_drops_exponent u hu x).1
  constructor
  · rintro ⟨r, e, h⟩
    rw [hr] at e; cases e
    have := (h (fun _ => 2) (fun _ => two_pos)).unique (.unit _)
    simp only [UnitV.mag, Rat.cast_one, Real.rpow_one] at this
    have h1 : (2 : ℝ) ^ (u.exp : ℝ) = 2 := by
      have h0 := mul_ne_zero vu hx
      apply mul_left_cancel₀ h0
      linarith
    have h2 : (u.exp : ℝ) = 1 := two_rpow_inj (by rw [h1, Real.rpow_one])
    exact_mod_cast h2
  · intro he
    refine ⟨_, hr, fun ρ _ => ?_⟩
    have : u.mag ρ * x = (⟨u.cls, u.value * x, u.unit, 1⟩ : UnitV ℝ).mag ρ := by simp only [UnitV.mag, he]; ring
    rw [this]; exact .unit _

/-- Adding a number to a simple quantity keeps the unit exactly when the exponent is one. -/
theorem C08_add_num_exact (u : UnitV ℝ) (hu : u.Constructed) (x : ℝ) :
    (Val.add (.unit u) (.num x) = .ok (.unit ⟨u.cls, u.value + x, u.unit, u.exp⟩) ↔ u.exp = 1) ∧
    (Val.sub (.unit u) (.num x) = .ok (.unit ⟨u.cls, u.value - x, u.unit, u.exp⟩) ↔ u.exp = 1) := by
  simp [Val.add, Val.sub, unitAdd, unitSub, hu.rebuild, wrapUnit, eq_comm]

/-- Converting a positive simple quantity with an exponent to the standard unit is right exactly when the value or the
exponent is one. -/
theorem C23_to_standard_exact (c : UCls) (hc : c ∈ linearClasses) (s std : Sym) (hstd : standardOf c = some std)
    (hs : s ∈ tableKeys stdTables c) (d : DecLit) (hd : d.int ≠ []) (v : ℝ) (hv : 0 < v) :
    ∃ a : ℚ, 0 < a ∧ (∀ v : ℝ, convertUnit stdTables ⟨c, v, s, 1⟩ std = .ok ⟨c, v * a, std, 1⟩) ∧
      (convertUnit stdTables ⟨c, v, s, d.value⟩ (std ++ '^' :: d.text) =
        .ok ⟨c, v * (a : ℝ) ^ (d.value : ℝ), std, d.value⟩ ↔ v = 1 ∨ d.value = 1) := by
  obtain ⟨⟨c', s', a, b⟩, he, rfl, rfl⟩ := entries_complete c hc s hs
  have hf := entries_facts _ he
  obtain ⟨std', hs', n1, n2, -⟩ := standard_facts c' hc
  rw [hstd] at hs'; cases hs'
  have hne : s' ≠ std := by rintro rfl; exact hf.2.2.2.1 hstd.symm
  have ha : (0 : ℝ) < a := by exact_mod_cast hf.2.2.2.2.2.2.1
  refine ⟨a, hf.2.2.2.2.2.2.1, fun v => ?_, ?_⟩
  · rw [convertUnit_one hc (.inr he) (.inl ⟨hstd, rfl, rfl⟩) hne v]; simp
  · have hval : convertUnit stdTables ⟨c', v, s', d.value⟩ (std ++ '^' :: d.text) =
        .ok ⟨c', (v * a) ^ (d.value : ℝ), std, d.value⟩ := by
      unfold convertUnit
      rw [parseTarget_exp hf.2.1 n1 d hd]
      exact convertParsed_to he hstd v _ _ (pow_real_pos (mul_pos hv ha) _)
    rw [hval]
    simp only [Except.ok.injEq, UnitV.mk.injEq, and_true, true_and]
    rw [Real.mul_rpow hv.le ha.le]
    constructor
    · intro h
      have h1 := mul_right_cancel₀ (Real.rpow_pos_of_pos ha _).ne' h
      by_cases hv1 : v = 1
      · exact .inl hv1
      · right
        have : (d.value : ℝ) = 1 := by
          have h2 : v ^ (d.value : ℝ) = v ^ (1 : ℝ) := by rw [h1, Real.rpow_one]
          exact (Real.rpow_right_inj hv hv1).1 h2
        exact_mod_cast this
    · rintro (rfl | h)
      · simp
      · rw [h]; simp

end Verif
