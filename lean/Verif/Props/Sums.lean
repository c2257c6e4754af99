import Verif.Lemmas.Construct

/-! # C08, C09, C28: addition, subtraction, negation -/

namespace Verif

/-! ## C08 -/

/-- Same class and identical units. -/
def SameUnits (m o : MultiV ℝ) : Prop := m.top = o.top ∧ m.bot = o.bot

/-- Compound addition: defined exactly for a compound quantity of the same class with identical units; then the value is
the sum and the units are those of the operands; everything else raises TypeError. -/
theorem C08_add_multi (m : MultiV ℝ) (v : Val ℝ) :
    (∃ o, v = .multi o ∧ m.cls = o.cls ∧ SameUnits m o ∧
      Val.add (.multi m) v = .ok (.multi ⟨.multi, m.value + o.value, m.top, m.bot⟩)) ∨
    ((¬ ∃ o, v = .multi o ∧ m.cls = o.cls ∧ SameUnits m o) ∧
      Val.add (.multi m) v = .error .typeError) := by
  cases v with
  | multi o =>
    by_cases h1 : m.cls = o.cls
    · by_cases h2 : SameUnits m o
      · left; exact ⟨o, rfl, h1, h2, by simp [Val.add, multiAdd, h1, h2.1, h2.2]⟩
      · right
        refine ⟨?_, ?_⟩
        · rintro ⟨o', h, -, h3⟩; cases h; exact h2 h3
        · have : ¬ (m.top = o.top ∧ m.bot = o.bot) := h2
          simp only [Val.add, multiAdd, h1, if_true, this, if_false]
    · right
      refine ⟨?_, by simp only [Val.add, multiAdd, h1, if_false]⟩
      rintro ⟨o', h, h3, -⟩; cases h; exact h1 h3
  | _ => right; refine ⟨?_, rfl⟩; rintro ⟨o, h, -⟩; cases h

/-- Compound subtraction by a quantity or number: defined exactly for identical units; then the value is the difference. -/
theorem C08_sub_multi (m : MultiV ℝ) (v : Val ℝ) (hv : v ≠ .bare) :
    (∃ o, v = .multi o ∧ SameUnits m o ∧
      Val.sub (.multi m) v = .ok (.multi ⟨.multi, m.value - o.value, m.top, m.bot⟩)) ∨
    ((¬ ∃ o, v = .multi o ∧ SameUnits m o) ∧ Val.sub (.multi m) v = .error .typeError) := by
  cases v with
  | multi o =>
    by_cases h2 : SameUnits m o
    · left; exact ⟨o, rfl, h2, by simp [Val.sub, multiSub, h2.1, h2.2]⟩
    · right
      refine ⟨?_, ?_⟩
      · rintro ⟨o', h, h3⟩; cases h; exact h2 h3
      · have : ¬ (m.top = o.top ∧ m.bot = o.bot) := h2
        simp only [Val.sub, multiSub, this, if_false]
  | bare => exact absurd rfl hv
  | _ => right; refine ⟨?_, rfl⟩; rintro ⟨o, h, -⟩; cases h

/-- The operands a simple quantity accepts in sums: same unit and exponent, class equal unless the left operand is a plain
`Unit`. -/
def UnitAddable (u w : UnitV ℝ) : Prop :=
  (u.cls = .unit ∨ w.cls = u.cls) ∧ u.unit = w.unit ∧ u.exp = w.exp

/-- Simple addition and subtraction with anything but a number. -/
theorem C08_add_sub_unit (u : UnitV ℝ) (hu : u.Constructed) (v : Val ℝ) (hv : ∀ x, v ≠ .num x) :
    (∃ w, v = .unit w ∧ UnitAddable u w ∧
      Val.add (.unit u) v = .ok (.unit ⟨u.cls, u.value + w.value, u.unit, u.exp⟩) ∧
      Val.sub (.unit u) v = .ok (.unit ⟨u.cls, u.value - w.value, u.unit, u.exp⟩)) ∨
    ((¬ ∃ w, v = .unit w ∧ UnitAddable u w) ∧ Val.add (.unit u) v = .error .typeError ∧
      Val.sub (.unit u) v = .error .typeError) := by
  cases v with
  | unit w =>
    by_cases h1 : isInstance w.cls u.cls
    · by_cases h2 : u.unit = w.unit ∧ u.exp = w.exp
      · left
        refine ⟨w, rfl, ⟨h1, h2⟩, ?_, ?_⟩
        · simp only [Val.add, unitAdd, h1, if_true, h2, wrapUnit]
          rw [← h2.1]; simp [hu.rebuild]
        · simp only [Val.sub, unitSub, h1, if_true, h2, wrapUnit]
          rw [← h2.1]; simp [hu.rebuild]
      · right
        refine ⟨?_, ?_, ?_⟩
        · rintro ⟨w', h, -, h3⟩; cases h; exact h2 h3
        · simp only [Val.add, unitAdd, h1, if_true, h2, if_false]
        · simp only [Val.sub, unitSub, h1, if_true, h2, if_false]
    · right
      refine ⟨?_, ?_, ?_⟩
      · rintro ⟨w', h, h3, -⟩; cases h; exact h1 h3
      · simp only [Val.add, unitAdd, h1, if_false]
      · simp only [Val.sub, unitSub, h1, if_false]
  | num x => exact absurd rfl (hv x)
  | _ => right; refine ⟨?_, rfl, rfl⟩; rintro ⟨o, h, -⟩; cases h

/-- Simple quantity plus or minus a number keeps unit and exponent when the exponent is 1.  Missing for the full
claim: other exponents. -/
theorem C08_add_sub_num_partial (u : UnitV ℝ) (hu : u.Constructed) (he : u.exp = 1) (x : ℝ) :
    Val.add (.unit u) (.num x) = .ok (.unit ⟨u.cls, u.value + x, u.unit, u.exp⟩) ∧
    Val.sub (.unit u) (.num x) = .ok (.unit ⟨u.cls, u.value - x, u.unit, u.exp⟩) := by
  simp [Val.add, Val.sub, unitAdd, unitSub, hu.rebuild, wrapUnit, he]

/-- The full claim is false: 1 m² + 1 is 2 m. -/
theorem C08_add_num_false : ¬ ∀ u : UnitV ℝ, u.Constructed → ∀ x : ℝ,
    Val.add (.unit u) (.num x) = .ok (.unit ⟨u.cls, u.value + x, u.unit, u.exp⟩) := by
  intro h
  have := h ⟨.length, 1, c!"m", 2⟩ ⟨1, c!"m", 2, rfl⟩ 1
  simp [Val.add, unitAdd, wrapUnit, mkUnit] at this

/-- Numbers never absorb quantities on the left. -/
theorem C08_num_add (x : ℝ) (v : Val ℝ) (hv : ∀ y, v ≠ .num y) :
    Val.add (.num x) v = .error .typeError ∧ Val.sub (.num x) v = .error .typeError := by
  cases v with
  | num y => exact absurd rfl (hv y)
  | _ => exact ⟨rfl, rfl⟩

/-- Whenever a sum or difference of two compound quantities is returned, its magnitude is the sum or difference. -/
theorem C08_multi_magnitude (m o : MultiV ℝ) (r : Val ℝ) (ρ : Sym → ℝ) :
    (Val.add (.multi m) (.multi o) = .ok r → HasMag ρ r (m.mag ρ + o.mag ρ)) ∧
    (Val.sub (.multi m) (.multi o) = .ok r → HasMag ρ r (m.mag ρ - o.mag ρ)) := by
  constructor
  · intro h
    rcases C08_add_multi m (.multi o) with ⟨o', e, -, h2, h3⟩ | ⟨-, h3⟩
    · cases e
      rw [h3] at h; cases h
      have : m.mag ρ + o.mag ρ = (⟨.multi, m.value + o.value, m.top, m.bot⟩ : MultiV ℝ).mag ρ := by
        simp only [MultiV.mag, mag, ← h2.1, ← h2.2]; ring
      rw [this]; exact .multi _
    · rw [h3] at h; cases h
  · intro h
    rcases C08_sub_multi m (.multi o) (by simp) with ⟨o', e, h2, h3⟩ | ⟨-, h3⟩
    · cases e
      rw [h3] at h; cases h
      have : m.mag ρ - o.mag ρ = (⟨.multi, m.value - o.value, m.top, m.bot⟩ : MultiV ℝ).mag ρ := by
        simp only [MultiV.mag, mag, ← h2.1, ← h2.2]; ring
      rw [this]; exact .multi _
    · rw [h3] at h; cases h

/-- The same for simple quantities. -/
theorem C08_unit_magnitude (u w : UnitV ℝ) (hu : u.Constructed) (r : Val ℝ) (ρ : Sym → ℝ) :
    (Val.add (.unit u) (.unit w) = .ok r → HasMag ρ r (u.mag ρ + w.mag ρ)) ∧
    (Val.sub (.unit u) (.unit w) = .ok r → HasMag ρ r (u.mag ρ - w.mag ρ)) := by
  rcases C08_add_sub_unit u hu (.unit w) (by simp) with ⟨w', e, ⟨-, h2, h2'⟩, h3, h4⟩ | ⟨-, h3, h4⟩
  · cases e
    constructor
    · intro h; rw [h3] at h; cases h
      have : u.mag ρ + w.mag ρ = (⟨u.cls, u.value + w.value, u.unit, u.exp⟩ : UnitV ℝ).mag ρ := by
        simp only [UnitV.mag, h2, h2']; ring
      rw [this]; exact .unit _
    · intro h; rw [h4] at h; cases h
      have : u.mag ρ - w.mag ρ = (⟨u.cls, u.value - w.value, u.unit, u.exp⟩ : UnitV ℝ).mag ρ := by
        simp only [UnitV.mag, h2, h2']; ring
      rw [this]; exact .unit _
  · constructor
    · intro h; rw [h3] at h; cases h
    · intro h; rw [h4] at h; cases h

/-- Two quantities of one class with the same units, and two that differ. -/
example : SameUnits ⟨.multi, 1, [⟨c!"kg", 1⟩], [⟨c!"m", 3⟩]⟩ ⟨.multi, 5, [⟨c!"kg", 1⟩], [⟨c!"m", 3⟩]⟩ ∧
    ¬ SameUnits ⟨.multi, 1, [⟨c!"kg", 1⟩], [⟨c!"m", 3⟩]⟩ ⟨.multi, 5, [⟨c!"g", 1⟩], [⟨c!"m", 3⟩]⟩ := by
  refine ⟨⟨rfl, rfl⟩, ?_⟩
  rintro ⟨h, -⟩; revert h; decide

example : (⟨.length, 1, c!"m", 2⟩ : UnitV ℝ).Constructed ∧
    UnitAddable ⟨.length, 1, c!"m", 2⟩ ⟨.length, 7, c!"m", 2⟩ := ⟨⟨1, c!"m", 2, rfl⟩, .inr rfl, rfl, rfl⟩

/-! ## C09 -/

/-- Sums of three simple quantities of one class and unit: defined and associative. -/
theorem C09_sum_units (a b c : UnitV ℝ) (ha : a.Constructed) (hab : b.cls = a.cls) (hac : c.cls = a.cls)
    (hub : a.unit = b.unit ∧ a.exp = b.exp) (huc : a.unit = c.unit ∧ a.exp = c.exp) :
    ∃ ab bc r s, Val.add (.unit a) (.unit b) = .ok ab ∧ Val.add (.unit b) (.unit c) = .ok bc ∧
      Val.add ab (.unit c) = .ok r ∧ Val.add (.unit a) bc = .ok s ∧ r = s ∧
      r = .unit ⟨a.cls, a.value + b.value + c.value, a.unit, a.exp⟩ := by
  have hr := ha.rebuild
  refine ⟨.unit ⟨a.cls, a.value + b.value, a.unit, a.exp⟩, .unit ⟨a.cls, b.value + c.value, a.unit, a.exp⟩,
    .unit ⟨a.cls, a.value + b.value + c.value, a.unit, a.exp⟩,
    .unit ⟨a.cls, a.value + (b.value + c.value), a.unit, a.exp⟩, ?_, ?_, ?_, ?_, by rw [add_assoc], rfl⟩ <;>
  simp [Val.add, unitAdd, isInstance, hab, hac, ← hub.1, ← hub.2, ← huc.1, ← huc.2, hr, wrapUnit]

/-- Sums of three compound quantities of the plain class `MultiUnit`.  Missing for the full claim: subclasses. -/
theorem C09_sum_multi_partial (a b c : MultiV ℝ) (ha : a.cls = .multi) (hb : b.cls = .multi)
    (hc : c.cls = .multi) (hab : SameUnits a b) (hac : SameUnits a c) :
    ∃ ab bc r s, Val.add (.multi a) (.multi b) = .ok ab ∧ Val.add (.multi b) (.multi c) = .ok bc ∧
      Val.add ab (.multi c) = .ok r ∧ Val.add (.multi a) bc = .ok s ∧ r = s ∧
      r = .multi ⟨.multi, a.value + b.value + c.value, a.top, a.bot⟩ := by
  refine ⟨.multi ⟨.multi, a.value + b.value, a.top, a.bot⟩, .multi ⟨.multi, b.value + c.value, a.top, a.bot⟩,
    .multi ⟨.multi, a.value + b.value + c.value, a.top, a.bot⟩,
    .multi ⟨.multi, a.value + (b.value + c.value), a.top, a.bot⟩, ?_, ?_, ?_, ?_, by rw [add_assoc], rfl⟩ <;>
  simp [Val.add, multiAdd, ha, hb, hc, ← hab.1, ← hab.2, ← hac.1, ← hac.2]

example : SameUnits ⟨.multi, 1, [⟨c!"kg", 1⟩], [⟨c!"m", 3⟩]⟩ ⟨.multi, 5, [⟨c!"kg", 1⟩], [⟨c!"m", 3⟩]⟩ := ⟨rfl, rfl⟩

/-- For every subclass of `MultiUnit` (for instance `Density`) and all operands, a sum of three raises TypeError: the sum
of two has class `MultiUnit`. -/
theorem C09_sum_subclass_raises (n : Sym) (a b c : MultiV ℝ) (ha : a.cls = .sub n) (hb : b.cls = .sub n)
    (hc : c.cls = .sub n) (hab : SameUnits a b) :
    ∃ ab, Val.add (.multi a) (.multi b) = .ok ab ∧ Val.add ab (.multi c) = .error .typeError := by
  refine ⟨.multi ⟨.multi, a.value + b.value, a.top, a.bot⟩, ?_, ?_⟩ <;>
  simp [Val.add, multiAdd, ha, hb, hc, hab.1, hab.2]

/-- Hence the full claim is false. -/
theorem C09_sum_multi_false : ¬ ∀ a b c : MultiV ℝ, a.cls = b.cls → a.cls = c.cls → SameUnits a b → SameUnits a c →
    ∃ ab r, Val.add (.multi a) (.multi b) = .ok ab ∧ Val.add ab (.multi c) = .ok r := by
  intro h
  let a : MultiV ℝ := ⟨.sub c!"Density", 1, [⟨c!"kg", 1⟩], [⟨c!"m", 3⟩]⟩
  obtain ⟨ab, r, h1, h2⟩ := h a a a rfl rfl ⟨rfl, rfl⟩ ⟨rfl, rfl⟩
  obtain ⟨ab', h3, h4⟩ := C09_sum_subclass_raises c!"Density" a a a rfl rfl rfl ⟨rfl, rfl⟩
  rw [h1] at h3; cases h3
  rw [h2] at h4; cases h4

/-! ## C28 -/

/-- Negation is an involution with the opposite magnitude: compound quantities. -/
theorem C28_neg_multi (m : MultiV ℝ) (ρ : Sym → ℝ) :
    ∃ n : MultiV ℝ, Val.neg (.multi m) = .ok (.multi n) ∧ Val.neg (.multi n) = .ok (.multi m) ∧
      n.mag ρ = - m.mag ρ := by
  refine ⟨multiNeg m, rfl, ?_, ?_⟩
  · simp [Val.neg, multiNeg]
  · simp [multiNeg, MultiV.mag, mag]

/-- Negation is an involution with the opposite magnitude: simple quantities. -/
theorem C28_neg_unit (u : UnitV ℝ) (hu : u.Constructed) (ρ : Sym → ℝ) :
    ∃ n : UnitV ℝ, Val.neg (.unit u) = .ok (.unit n) ∧ Val.neg (.unit n) = .ok (.unit u) ∧
      n.mag ρ = - u.mag ρ := by
  refine ⟨⟨u.cls, -u.value, u.unit, u.exp⟩, ?_, ?_, ?_⟩
  · simp [Val.neg, unitNeg, hu.rebuild, wrapUnit]
  · simp [Val.neg, unitNeg, hu.rebuild, wrapUnit]
  · simp [UnitV.mag]

/-- Subtraction is addition of the negative: compound quantities of one class. -/
theorem C28_sub_eq_add_neg_multi (a b : MultiV ℝ) (h : a.cls = b.cls) :
    ∃ n, Val.neg (.multi b) = .ok n ∧ Val.sub (.multi a) (.multi b) = Val.add (.multi a) n := by
  refine ⟨_, rfl, ?_⟩
  show multiSub a (.multi b) = multiAdd a (.multi ⟨b.cls, -b.value, b.top, b.bot⟩)
  simp only [multiSub, multiAdd, if_pos h, sub_eq_add_neg]

/-- Subtraction is addition of the negative: simple quantities. -/
theorem C28_sub_eq_add_neg_unit (a b : UnitV ℝ) (hb : b.Constructed) :
    ∃ n, Val.neg (.unit b) = .ok n ∧ Val.sub (.unit a) (.unit b) = Val.add (.unit a) n := by
  refine ⟨.unit ⟨b.cls, -b.value, b.unit, b.exp⟩, ?_, ?_⟩
  · simp [Val.neg, unitNeg, hb.rebuild, wrapUnit]
  · simp [Val.sub, Val.add, unitSub, unitAdd, sub_eq_add_neg]

example : (⟨.pressure, 1, c!"kPa", 1⟩ : UnitV ℝ).Constructed := 
  ⟨1, c!"kPa", 1, by simp [mkUnit, pressureUnits, prefixed, allPrefixes]⟩

end Verif
