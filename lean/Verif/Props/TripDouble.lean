import Verif.Lemmas.ArangeDouble
import Verif.Lemmas.Float
import Verif.Lemmas.Simple
import Verif.Units.Float
import Verif.Units.Ops

/-!
# C122: there and back in double precision

`u.convert_to(t).convert_to(s) == u` for a quantity `u` in the unit `s`, every operation rounded.
-/

namespace Verif

/-- The arithmetic that rounds every result with `r`. -/
noncomputable def DoubleRounding.arith {r : ℝ → ℝ} (hr : DoubleRounding r) : FloatArith :=
  FloatArith.ofRounding r (2⁻¹ ^ 53) (by positivity) (by norm_num) hr.close

section
variable {K : Type} [Zero K] [One K] [Add K] [Sub K] [Mul K] [Div K] [Neg K] [NatCast K] [RatCast K] [LinearOrder K] [PyPow K]

/-- `u.convert_to(t).convert_to(u._unit)`. -/
def thereAndBack (u : UnitV K) (t : Sym) : PyM (UnitV K) :=
  match convertUnit stdTables u t with
  | .error e => .error e
  | .ok w => convertUnit stdTables w u.unit

end

/-- Units worth a whole number of standard units. -/
def largerUnits : List (UCls × Sym × ℕ) :=
  [(.pressure, c!"kPa", 1000), (.pressure, c!"MPa", 10000000), (.pressure, c!"bar", 100000), (.pressure, c!"atm", 101325),
   (.length, c!"km", 1000), (.energy, c!"kJ", 1000), (.energy, c!"MJ", 1000000), (.mass, c!"Mg", 1000), (.force, c!"kN", 1000),
   (.force, c!"MN", 1000000), (.time, c!"min", 60), (.time, c!"hr", 3600), (.time, c!"day", 86400)]

/-- Units of which a whole number makes the standard unit. -/
def smallerUnits : List (UCls × Sym × ℕ) :=
  [(.pressure, c!"uPa", 1000000), (.pressure, c!"mPa", 1000), (.pressure, c!"dPa", 10), (.length, c!"um", 1000000),
   (.length, c!"mm", 1000), (.length, c!"cm", 100), (.length, c!"dm", 10), (.energy, c!"uJ", 1000000), (.energy, c!"mJ", 1000),
   (.energy, c!"cJ", 100), (.energy, c!"dJ", 10), (.mass, c!"ug", 1000000000), (.mass, c!"mg", 1000000), (.mass, c!"dg", 10000), (.mass, c!"g", 1000),
   (.force, c!"uN", 1000000), (.force, c!"mN", 1000), (.force, c!"dN", 10)]

variable {r : ℝ → ℝ} (hr : DoubleRounding r)

theorem pow_arith (x : Fl hr.arith) : (PyPow.pow x 1 : PyM (Fl hr.arith)) = .ok ⟨r x.val⟩ := by
  have e : hr.arith.pow x.val 1 = r x.val := by
    show r (x.val ^ ((1 : ℚ) : ℝ)) = _
    norm_num
  show (if x.val = 0 ∧ (1 : ℚ) < 0 then _ else if x.val < 0 ∧ (1 : ℚ).den ≠ 1 then _ else Except.ok _) = _
  rw [if_neg (by norm_num), if_neg (by norm_num), e]

/-- To a unit of the class that is not the standard, from the standard. -/
theorem convert_from_std {c : UCls} {s std : Sym} {f : Conv (Fl hr.arith)} {v y : Fl hr.arith} (h1 : standardOf c = some std) (h2 : std ≠ s)
    (h3 : std ∉ unitComposites) (h4 : '^' ∉ s) (h5 : lookupFrom stdTables c s = .ok f) (h6 : f v = .ok y)
    (h7 : ∀ w : Fl hr.arith, mkUnit c w s 1 = .ok ⟨c, w, s, 1⟩) :
    convertUnit stdTables ⟨c, v, std, 1⟩ s = .ok ⟨c, ⟨r y.val⟩, s, 1⟩ := by
  unfold convertUnit
  rw [parseTarget_plain h3 h4]
  simp only [convertParsed, if_neg h2, h1, if_neg h2.symm, if_true, applyConv, h5, h6, pow_arith, h7]

/-- From a unit of the class that is not the standard, to the standard. -/
theorem convert_to_std {c : UCls} {s std : Sym} {f : Conv (Fl hr.arith)} {v y : Fl hr.arith} (h1 : standardOf c = some std) (h2 : std ≠ s)
    (h3 : s ∉ unitComposites) (h4 : '^' ∉ std) (h5 : lookupTo stdTables c s = .ok f) (h6 : f v = .ok y)
    (h7 : ∀ w : Fl hr.arith, mkUnit c w std 1 = .ok ⟨c, w, std, 1⟩) :
    convertUnit stdTables ⟨c, v, s, 1⟩ std = .ok ⟨c, ⟨r y.val⟩, std, 1⟩ := by
  unfold convertUnit
  rw [parseTarget_plain h3 h4]
  simp only [convertParsed, if_neg h2.symm, h1, if_true, applyConv, h5, h6, pow_arith, h7]

include hr in
/-- Multiplying by a whole number and dividing by it, with room for the product. -/
theorem times_over {q : ℕ} (hq : q ≠ 0) {k j : ℤ} (hk : |k * q| < 2 ^ 53) :
    r (r (r (r (k * 2 ^ j * r ((q : ℚ) : ℝ))) / r ((q : ℚ) : ℝ))) = k * 2 ^ j := by
  have hq' : (q : ℝ) ≠ 0 := by exact_mod_cast hq
  have hb : |(q : ℤ)| ≤ |k * q| ∨ k = 0 := by
    rcases eq_or_ne k 0 with h | h
    · exact .inr h
    · left
      rw [abs_mul]
      nlinarith [Int.one_le_abs h, abs_nonneg (q : ℤ)]
  have hk' : |k| < 2 ^ 53 := by
    have : (1 : ℤ) ≤ |(q : ℤ)| := Int.one_le_abs (by exact_mod_cast hq)
    rw [abs_mul] at hk
    nlinarith [abs_nonneg k]
  rcases hb with hb | hb
  · have e1 : r ((q : ℚ) : ℝ) = q := by
      have := hr.fixes ((q : ℤ) : ℝ) (isDouble_int (lt_of_le_of_lt hb hk))
      push_cast at this ⊢
      exact this
    have e2 : (k * 2 ^ j * q : ℝ) = (k * q : ℤ) * 2 ^ j := by push_cast; ring
    have f2 := hr.fixes _ (isDouble_scaled (j := j) hk)
    have e3 : ((k * q : ℤ) * 2 ^ j / q : ℝ) = k * 2 ^ j := by push_cast; field_simp
    have f3 := hr.fixes _ (isDouble_scaled (j := j) hk')
    rw [e1, e2, f2, f2, e3, f3, f3]
  · have h0 : r 0 = 0 := hr.fixes 0 ⟨0, 0, by norm_num, by simp⟩
    subst hb
    simp [h0]

/-- From a larger unit to the standard unit and back: the quantity returns unchanged if its number times the factor has at
most 53 bits. -/
theorem C122_larger_partial {e : UCls × Sym × ℕ} (he : e ∈ largerUnits) {std : Sym} (hs : standardOf e.1 = some std) {k j : ℤ}
    (hk : |k * e.2.2| < 2 ^ 53) :
    thereAndBack (K := Fl hr.arith) ⟨e.1, ⟨k * 2 ^ j⟩, e.2.1, 1⟩ std = .ok ⟨e.1, ⟨k * 2 ^ j⟩, e.2.1, 1⟩ := by
  obtain ⟨c, s, q⟩ := e
  simp only at hs hk ⊢
  have main : q ≠ 0 → std ≠ s → s ∉ unitComposites → std ∉ unitComposites → '^' ∉ s → '^' ∉ std →
      lookupTo (stdTables (K := Fl hr.arith)) c s = .ok (mulBy (q : ℚ)) → lookupFrom (stdTables (K := Fl hr.arith)) c s = .ok (divBy (q : ℚ)) →
      (∀ w : Fl hr.arith, mkUnit c w s 1 = .ok ⟨c, w, s, 1⟩) → (∀ w : Fl hr.arith, mkUnit c w std 1 = .ok ⟨c, w, std, 1⟩) →
      thereAndBack (K := Fl hr.arith) ⟨c, ⟨k * 2 ^ j⟩, s, 1⟩ std = .ok ⟨c, ⟨k * 2 ^ j⟩, s, 1⟩ := by
    intro hq h2 h3 h3' h4 h4' h5 h5' h7 h7'
    simp only [thereAndBack, convert_to_std hr hs h2 h3 h4' h5 (y := _ * _) rfl h7', convert_from_std hr hs h2 h3' h4 h5' (y := _ / _) rfl h7]
    congr 3
    exact times_over hr hq hk
  simp only [largerUnits, List.mem_cons, List.not_mem_nil, or_false, Prod.mk.injEq] at he
  rcases he with h | h | h | h | h | h | h | h | h | h | h | h | h <;> obtain ⟨rfl, rfl, rfl⟩ := h <;> cases hs <;>
    refine main (by norm_num) (by decide) (by decide) (by decide) (by decide) (by decide) ?_ ?_ (fun _ => rfl) (fun _ => rfl) <;>
    first | (simp only [Nat.cast_ofNat]; rfl) | (simp only [Nat.cast_ofNat, show (86400 : ℚ) = 3600 * 24 by norm_num]; rfl)

/-- From the standard unit to a smaller one and back. -/
theorem C122_smaller_partial {e : UCls × Sym × ℕ} (he : e ∈ smallerUnits) {std : Sym} (hs : standardOf e.1 = some std) {k j : ℤ}
    (hk : |k * e.2.2| < 2 ^ 53) :
    thereAndBack (K := Fl hr.arith) ⟨e.1, ⟨k * 2 ^ j⟩, std, 1⟩ e.2.1 = .ok ⟨e.1, ⟨k * 2 ^ j⟩, std, 1⟩ := by
  obtain ⟨c, s, q⟩ := e
  simp only at hs hk ⊢
  have main : q ≠ 0 → std ≠ s → s ∉ unitComposites → std ∉ unitComposites → '^' ∉ s → '^' ∉ std →
      lookupTo (stdTables (K := Fl hr.arith)) c s = .ok (divBy (q : ℚ)) → lookupFrom (stdTables (K := Fl hr.arith)) c s = .ok (mulBy (q : ℚ)) →
      (∀ w : Fl hr.arith, mkUnit c w s 1 = .ok ⟨c, w, s, 1⟩) → (∀ w : Fl hr.arith, mkUnit c w std 1 = .ok ⟨c, w, std, 1⟩) →
      thereAndBack (K := Fl hr.arith) ⟨c, ⟨k * 2 ^ j⟩, std, 1⟩ s = .ok ⟨c, ⟨k * 2 ^ j⟩, std, 1⟩ := by
    intro hq h2 h3 h3' h4 h4' h5 h5' h7 h7'
    simp only [thereAndBack, convert_from_std hr hs h2 h3' h4 h5' (y := _ * _) rfl h7, convert_to_std hr hs h2 h3 h4' h5 (y := _ / _) rfl h7']
    congr 3
    exact times_over hr hq hk
  simp only [smallerUnits, List.mem_cons, List.not_mem_nil, or_false, Prod.mk.injEq] at he
  rcases he with h | h | h | h | h | h | h | h | h | h | h | h | h | h | h | h | h | h <;> obtain ⟨rfl, rfl, rfl⟩ := h <;> cases hs <;>
    refine main (by norm_num) (by decide) (by decide) (by decide) (by decide) (by decide) ?_ ?_ (fun _ => rfl) (fun _ => rfl) <;>
    (simp only [Nat.cast_ofNat]; rfl)

/-! ## Temperatures -/

include hr in
/-- The offset of the Celsius scale: a whole number of 2^-44. -/
theorem offset_grid : ∃ m : ℤ, r ((27315 / 100 : ℚ) : ℝ) = m * 2 ^ (-44 : ℤ) ∧ 273 ≤ r ((27315 / 100 : ℚ) : ℝ) ∧ r ((27315 / 100 : ℚ) : ℝ) ≤ 274 := by
  have h := abs_le.1 (hr.close ((27315 / 100 : ℚ) : ℝ))
  norm_num at h
  have h1 : 273 ≤ r (5463 / 20) := by linarith [h.1]
  have h2 : r (5463 / 20) ≤ 274 := by linarith [h.2]
  have e : ((27315 / 100 : ℚ) : ℝ) = 5463 / 20 := by norm_num
  rw [e]
  obtain ⟨m, hm⟩ := (hr.double (5463 / 20)).grid (e := 8) (by rw [abs_of_pos (by linarith)]; norm_num; linarith)
  exact ⟨m, by rw [hm]; norm_num, h1, h2⟩

/-- What comes back from Celsius by way of Kelvin. -/
theorem celsius_back (x : ℝ) : thereAndBack (K := Fl hr.arith) ⟨.temperature, ⟨x⟩, c!"C", 1⟩ c!"K" =
    .ok ⟨.temperature, ⟨r (r (r (r (x + r ((27315 / 100 : ℚ) : ℝ))) - r ((27315 / 100 : ℚ) : ℝ)))⟩, c!"C", 1⟩ := by
  simp only [thereAndBack, convert_to_std hr (c := .temperature) (s := c!"C") (std := c!"K") (v := ⟨x⟩) (y := _ + _) rfl (by decide) (by decide)
    (by decide) rfl rfl (fun _ => rfl), convert_from_std hr (c := .temperature) (s := c!"C") (std := c!"K") (y := _ - _) rfl (by decide) (by decide)
    (by decide) rfl rfl (fun _ => rfl)]
  rfl

/-- What comes back from Kelvin by way of Celsius. -/
theorem kelvin_back (x : ℝ) : thereAndBack (K := Fl hr.arith) ⟨.temperature, ⟨x⟩, c!"K", 1⟩ c!"C" =
    .ok ⟨.temperature, ⟨r (r (r (r (x - r ((27315 / 100 : ℚ) : ℝ))) + r ((27315 / 100 : ℚ) : ℝ)))⟩, c!"K", 1⟩ := by
  simp only [thereAndBack, convert_from_std hr (c := .temperature) (s := c!"C") (std := c!"K") (v := ⟨x⟩) (y := _ - _) rfl (by decide) (by decide)
    (by decide) rfl rfl (fun _ => rfl), convert_to_std hr (c := .temperature) (s := c!"C") (std := c!"K") (y := _ + _) rfl (by decide) (by decide)
    (by decide) rfl rfl (fun _ => rfl)]
  rfl

theorem grid_lt {k : ℤ} {x : ℝ} (h : x = k * 2 ^ (-44 : ℤ)) (hx : |x| < 512) : |k| < 2 ^ 53 := by
  have : |(k : ℝ)| < 2 ^ 53 := by
    have e : (k : ℝ) = x * 2 ^ 44 := by rw [h]; norm_num; ring
    rw [e, abs_mul, abs_of_pos (show (0 : ℝ) < 2 ^ 44 by norm_num)]
    calc |x| * 2 ^ 44 < 512 * 2 ^ 44 := by gcongr
      _ = 2 ^ 53 := by norm_num
  exact_mod_cast this

/-- Celsius to Kelvin and back: unchanged for whole numbers of 2^-44 degrees between -200 and 200. -/
theorem C122_celsius_partial {k : ℤ} {x : ℝ} (h : x = k * 2 ^ (-44 : ℤ)) (hx : |x| ≤ 200) :
    thereAndBack (K := Fl hr.arith) ⟨.temperature, ⟨x⟩, c!"C", 1⟩ c!"K" = .ok ⟨.temperature, ⟨x⟩, c!"C", 1⟩ := by
  obtain ⟨m, hm, h1, h2⟩ := offset_grid hr
  have hx' := abs_le.1 hx
  rw [celsius_back]
  generalize r ((27315 / 100 : ℚ) : ℝ) = c at *
  have e1 : x + c = (k + m : ℤ) * 2 ^ (-44 : ℤ) := by rw [h, hm]; push_cast; ring
  have f1 : r (x + c) = x + c := hr.fixes _ (e1 ▸ isDouble_scaled (grid_lt e1 (by rw [abs_lt]; constructor <;> linarith)))
  have f2 : r x = x := hr.fixes _ (h ▸ isDouble_scaled (grid_lt h (by linarith)))
  rw [f1, f1, add_sub_cancel_right, f2, f2]

/-- Between 0 and 200 degrees Celsius these are the only temperatures that come back unchanged. -/
theorem C122_celsius_iff {x : ℝ} (h0 : 0 ≤ x) (hx : x ≤ 200) :
    thereAndBack (K := Fl hr.arith) ⟨.temperature, ⟨x⟩, c!"C", 1⟩ c!"K" = .ok ⟨.temperature, ⟨x⟩, c!"C", 1⟩ ↔
      ∃ k : ℤ, x = k * 2 ^ (-44 : ℤ) := by
  constructor
  · intro h
    obtain ⟨m, hm, h1, h2⟩ := offset_grid hr
    rw [celsius_back] at h
    generalize r ((27315 / 100 : ℚ) : ℝ) = c at *
    simp only [Except.ok.injEq, UnitV.mk.injEq, Fl.mk.injEq, true_and, and_true] at h
    have hrr : ∀ y, r (r y) = r y := fun y => hr.fixes _ (hr.double y)
    rw [hrr, hrr] at h
    have hc : IsDouble c := by rw [hm]; exact isDouble_scaled (grid_lt hm (by rw [abs_of_pos (by linarith)]; linarith))
    have lo : c ≤ r (x + c) := by
      have := hr.mono (show c ≤ x + c by linarith)
      rwa [hr.fixes _ hc] at this
    have hi : r (x + c) ≤ 511 := by
      have := hr.mono (show x + c ≤ ((511 : ℤ) : ℝ) by push_cast; linarith)
      rw [hr.fixes _ (isDouble_int (by norm_num))] at this
      exact_mod_cast this
    obtain ⟨n, hn⟩ := (hr.double (x + c)).grid (e := 8) (by rw [abs_of_pos (by linarith)]; norm_num; linarith)
    norm_num at hn
    have e : r (x + c) - c = (n - m : ℤ) * 2 ^ (-44 : ℤ) := by rw [hn, hm]; push_cast; norm_num; ring
    rw [e, hr.fixes _ (isDouble_scaled (grid_lt e (by rw [abs_lt]; constructor <;> linarith)))] at h
    exact ⟨_, h.symm⟩
  · rintro ⟨k, hk⟩
    exact C122_celsius_partial hr hk (by rw [abs_of_nonneg h0]; exact hx)

/-- Kelvin to Celsius and back: unchanged for every double between 128 and 700 K. -/
theorem C122_kelvin_partial {x : ℝ} (hd : IsDouble x) (h0 : 128 ≤ x) (hx : x ≤ 700) :
    thereAndBack (K := Fl hr.arith) ⟨.temperature, ⟨x⟩, c!"K", 1⟩ c!"C" = .ok ⟨.temperature, ⟨x⟩, c!"K", 1⟩ := by
  obtain ⟨m, hm, h1, h2⟩ := offset_grid hr
  rw [kelvin_back]
  generalize r ((27315 / 100 : ℚ) : ℝ) = c at *
  have f1 : r (x - c) = x - c := by
    apply hr.fixes
    rcases lt_or_ge x 256 with h | h
    · obtain ⟨n, hn⟩ := hd.grid (e := 7) (by rw [abs_of_pos (by linarith)]; norm_num; linarith)
      norm_num at hn
      have e : x - c = (n - 2 * m : ℤ) * 2 ^ (-45 : ℤ) := by rw [hn, hm]; push_cast; norm_num; ring
      rw [e]
      apply isDouble_scaled
      have : |((n - 2 * m : ℤ) : ℝ)| < 2 ^ 53 := by
        have e' : ((n - 2 * m : ℤ) : ℝ) = (x - c) * 2 ^ 45 := by rw [e]; norm_num; ring
        rw [e', abs_lt]
        constructor <;> norm_num <;> linarith
      exact_mod_cast this
    · obtain ⟨n, hn⟩ := hd.grid (e := 8) (by rw [abs_of_pos (by linarith)]; norm_num; linarith)
      norm_num at hn
      have e : x - c = (n - m : ℤ) * 2 ^ (-44 : ℤ) := by rw [hn, hm]; push_cast; norm_num; ring
      rw [e]
      exact isDouble_scaled (grid_lt e (by rw [abs_lt]; constructor <;> linarith))
  have f2 := hr.fixes _ hd
  rw [f1, f1, sub_add_cancel, f2, f2]

/-! ## Quantities that do not come back -/

/-- A tenth of a degree Celsius does not come back from Kelvin, in any rounding. -/
theorem C122_celsius_false : ∃ w : UnitV (Fl hr.arith),
    thereAndBack ⟨.temperature, ⟨r ((1 / 10 : ℚ) : ℝ)⟩, c!"C", 1⟩ c!"K" = .ok w ∧
      Val.eq (.unit w) (.unit ⟨.temperature, ⟨r ((1 / 10 : ℚ) : ℝ)⟩, c!"C", 1⟩) = false := by
  have hcl := abs_le.1 (hr.close ((1 / 10 : ℚ) : ℝ))
  have e : ((1 / 10 : ℚ) : ℝ) = 1 / 10 := by norm_num
  rw [e] at hcl ⊢
  rw [abs_of_pos (by norm_num)] at hcl
  norm_num at hcl
  refine ⟨_, celsius_back hr _, ?_⟩
  by_contra hne
  have h : r (r (r (r (r (1 / 10) + r ((27315 / 100 : ℚ) : ℝ))) - r ((27315 / 100 : ℚ) : ℝ))) = r (1 / 10) := by
    simp only [Val.eq, unitEq, unitEqMethod, Bool.not_eq_false] at hne
    norm_num at hne ⊢
    exact hne
  have := (C122_celsius_iff hr (x := r (1 / 10)) (by norm_num; linarith [hcl.1]) (by norm_num; linarith [hcl.2])).1 (by rw [celsius_back, h])
  obtain ⟨k, hk⟩ := this
  have b1 : (1759218604441 : ℝ) < k := by
    have : (k : ℝ) = r (1 / 10) * 2 ^ 44 := by rw [hk]; norm_num; ring
    rw [this]; norm_num; linarith [hcl.1]
  have b2 : (k : ℝ) < 1759218604442 := by
    have : (k : ℝ) = r (1 / 10) * 2 ^ 44 := by rw [hk]; norm_num; ring
    rw [this]; norm_num; linarith [hcl.2]
  have b1 : (1759218604441 : ℤ) < k := by exact_mod_cast b1
  have b2 : k < (1759218604442 : ℤ) := by exact_mod_cast b2
  omega

/-- 29 cm do not come back from metres. -/
theorem C122_cm_false {N : ℝ → ℤ} (hN : IsNearest N) (hm : Monotone N) : ∃ w : UnitV (Fl (toBits53_rounding hN hm).arith),
    thereAndBack ⟨.length, ⟨29⟩, c!"cm", 1⟩ c!"m" = .ok w ∧ Val.eq (.unit w) (.unit ⟨.length, ⟨29⟩, c!"cm", 1⟩) = false := by
  have hr := toBits53_rounding hN hm
  have hundred : toBits53 N ((100 : ℚ) : ℝ) = 100 := by
    have := hr.fixes ((100 : ℤ) : ℝ) (isDouble_int (by norm_num))
    push_cast at this ⊢; exact this
  have quot : toBits53 N (29 / 100) = (5224175567749775 : ℤ) * 2 ^ (-54 : ℤ) := by
    rw [toBits53_eq hN 5224175567749775 (-54)]
    all_goals norm_num [abs_lt]
  have prod : toBits53 N ((5224175567749775 : ℤ) * 2 ^ (-54 : ℤ) * 100) = (8162774324609023 : ℤ) * 2 ^ (-48 : ℤ) := by
    rw [toBits53_eq hN 8162774324609023 (-48)]
    all_goals norm_num [abs_lt]
  have f1 := hr.fixes _ (isDouble_scaled (k := 5224175567749775) (j := -54) (by norm_num))
  have f2 := hr.fixes _ (isDouble_scaled (k := 8162774324609023) (j := -48) (by norm_num))
  have h : thereAndBack (K := Fl (toBits53_rounding hN hm).arith) ⟨.length, ⟨29⟩, c!"cm", 1⟩ c!"m" =
      .ok ⟨.length, ⟨toBits53 N (toBits53 N (toBits53 N (toBits53 N (29 / toBits53 N ((100 : ℚ) : ℝ))) * toBits53 N ((100 : ℚ) : ℝ)))⟩, c!"cm", 1⟩ := by
    simp only [thereAndBack, convert_to_std hr (c := .length) (s := c!"cm") (std := c!"m") (v := ⟨29⟩) (y := _ / _) rfl (by decide) (by decide)
      (by decide) rfl rfl (fun _ => rfl), convert_from_std hr (c := .length) (s := c!"cm") (std := c!"m") (y := _ * _) rfl (by decide) (by decide)
      (by decide) rfl rfl (fun _ => rfl)]
    rfl
  rw [hundred, quot, f1, prod, f2] at h
  refine ⟨_, h, ?_⟩
  by_contra hne
  simp only [Val.eq, unitEq, unitEqMethod, Bool.not_eq_false] at hne
  norm_num at hne

/-- 2.5 hours come back from seconds; 21.5 degrees Celsius come back from Kelvin. -/
example : thereAndBack (K := Fl hr.arith) ⟨.time, ⟨(5 : ℤ) * 2 ^ (-1 : ℤ)⟩, c!"hr", 1⟩ c!"s" = .ok ⟨.time, ⟨(5 : ℤ) * 2 ^ (-1 : ℤ)⟩, c!"hr", 1⟩ :=
  C122_larger_partial hr (e := (.time, c!"hr", 3600)) (by decide) rfl (by norm_num)

example : thereAndBack (K := Fl hr.arith) ⟨.temperature, ⟨43 / 2⟩, c!"C", 1⟩ c!"K" = .ok ⟨.temperature, ⟨43 / 2⟩, c!"C", 1⟩ :=
  C122_celsius_partial hr (k := 43 * 2 ^ 43) (by norm_num) (by norm_num [abs_of_pos])

end Verif
