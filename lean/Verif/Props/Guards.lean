import Verif.Lemmas.Construct
import Verif.Units.Convert

/-! # C26, C27, C29, C30: equality, foreign operands, required units -/

namespace Verif

/-! ## C26: equality -/

theorem setEq_iff (xs ys : UList) : setEq xs ys = true ↔ ∀ u, u ∈ xs ↔ u ∈ ys := by
  simp only [setEq, Bool.and_eq_true, List.all_eq_true, decide_eq_true_eq]
  constructor
  · rintro ⟨h1, h2⟩ u; exact ⟨h1 u, h2 u⟩
  · intro h; exact ⟨fun u hu => (h u).1 hu, fun u hu => (h u).2 hu⟩

theorem multiEq_iff (m o : MultiV ℝ) : multiEq m o = true ↔ m.cls = o.cls ∧ m.value = o.value ∧
    (∀ u, u ∈ m.top ↔ u ∈ o.top) ∧ (∀ u, u ∈ m.bot ↔ u ∈ o.bot) := by
  simp only [multiEq, Bool.and_eq_true, decide_eq_true_eq, setEq_iff, and_assoc]

/-- `==` on compound quantities is an equivalence relation. -/
theorem C26_multi_equivalence :
    (∀ m : MultiV ℝ, Val.eq (.multi m) (.multi m) = true) ∧
    (∀ m o : MultiV ℝ, Val.eq (.multi m) (.multi o) = true → Val.eq (.multi o) (.multi m) = true) ∧
    (∀ m o p : MultiV ℝ, Val.eq (.multi m) (.multi o) = true → Val.eq (.multi o) (.multi p) = true →
      Val.eq (.multi m) (.multi p) = true) := by
  simp only [Val.eq, multiEq_iff]
  refine ⟨by simp, ?_, ?_⟩
  · rintro m o ⟨h1, h2, h3, h4⟩
    exact ⟨h1.symm, h2.symm, fun u => (h3 u).symm, fun u => (h4 u).symm⟩
  · rintro m o p ⟨h1, h2, h3, h4⟩ ⟨k1, k2, k3, k4⟩
    exact ⟨h1.trans k1, h2.trans k2, fun u => (h3 u).trans (k3 u), fun u => (h4 u).trans (k4 u)⟩

/-- `==` on compound quantities does not depend on the order of the units. -/
theorem C26_multi_order (m o : MultiV ℝ) (h1 : m.cls = o.cls) (h2 : m.value = o.value)
    (ht : m.top.Perm o.top) (hb : m.bot.Perm o.bot) : Val.eq (.multi m) (.multi o) = true := by
  simp only [Val.eq, multiEq_iff]
  exact ⟨h1, h2, fun u => ht.mem_iff, fun u => hb.mem_iff⟩

/-- Equal compound quantities without repeated entries have the same magnitude.  Missing for the full claim: lists with
a repeated entry. -/
theorem C26_multi_eq_magnitude_partial (m o : MultiV ℝ) (h : Val.eq (.multi m) (.multi o) = true)
    (hm : m.top.Nodup ∧ m.bot.Nodup) (ho : o.top.Nodup ∧ o.bot.Nodup) (ρ : Sym → ℝ) :
    m.mag ρ = o.mag ρ := by
  obtain ⟨-, h2, h3, h4⟩ := (multiEq_iff m o).1 h
  have p1 : m.top.Perm o.top := (List.perm_ext_iff_of_nodup hm.1 ho.1).2 h3
  have p2 : m.bot.Perm o.bot := (List.perm_ext_iff_of_nodup hm.2 ho.2).2 h4
  simp only [MultiV.mag, mag, lsize, h2]
  rw [(p1.map _).prod_eq, (p2.map _).prod_eq]

example : ([⟨c!"kg", 1⟩, ⟨c!"m", 2⟩] : UList).Nodup := by decide

/-- The full claim is false: 1 ft·ft equals 1 ft. -/
theorem C26_multi_eq_magnitude_false : ¬ ∀ m o : MultiV ℝ, Val.eq (.multi m) (.multi o) = true →
    ∀ ρ, Coherent ρ → m.mag ρ = o.mag ρ := by
  intro h
  let ρ : Sym → ℝ := fun s => (siSize s : ℝ)
  have h2 := h ⟨.multi, 1, [⟨c!"ft", 1⟩, ⟨c!"ft", 1⟩], []⟩ ⟨.multi, 1, [⟨c!"ft", 1⟩], []⟩
    ((multiEq_iff _ _).2 (by simp)) ρ siSize_coherent
  have e2 : siSize c!"ft" = 3048 / 10000 := by decide +kernel
  simp only [MultiV.mag, mag, lsize, List.map_cons, List.map_nil, List.prod_cons, List.prod_nil, ρ, e2] at h2
  norm_num at h2

theorem unitEq_iff (u w : UnitV ℝ) : unitEq u w = true ↔
    (u.cls = w.cls ∨ u.cls = .unit ∨ w.cls = .unit) ∧ u.value = w.value ∧ u.unit = w.unit ∧ u.exp = w.exp := by
  unfold unitEq
  split
  · rename_i h
    simp only [unitEqMethod, Bool.and_eq_true, Bool.or_eq_true, decide_eq_true_eq, and_assoc, h.1, or_true,
      true_or, true_and]
    constructor
    · rintro ⟨a, b, c⟩; exact ⟨a.symm, b.symm, c.symm⟩
    · rintro ⟨a, b, c⟩; exact ⟨a.symm, b.symm, c.symm⟩
  · rename_i h
    simp only [unitEqMethod, Bool.and_eq_true, Bool.or_eq_true, decide_eq_true_eq, and_assoc]
    constructor
    · rintro ⟨a, b⟩
      exact ⟨a.elim .inl (fun h => .inr (.inr h)), b⟩
    · rintro ⟨a, b⟩
      refine ⟨?_, b⟩
      rcases a with a | a | a
      · exact .inl a
      · by_cases hw : w.cls = .unit
        · exact .inr hw
        · exact absurd ⟨a, hw⟩ h
      · exact .inr a

/-- `==` on simple quantities is reflexive and symmetric, and equal quantities have equal magnitude. -/
theorem C26_unit_refl_symm_magnitude :
    (∀ u : UnitV ℝ, Val.eq (.unit u) (.unit u) = true) ∧
    (∀ u w : UnitV ℝ, Val.eq (.unit u) (.unit w) = Val.eq (.unit w) (.unit u)) ∧
    (∀ u w : UnitV ℝ, Val.eq (.unit u) (.unit w) = true → ∀ ρ, u.mag ρ = w.mag ρ) := by
  refine ⟨fun u => (unitEq_iff u u).2 ⟨.inl rfl, rfl, rfl, rfl⟩, fun u w => ?_, fun u w h ρ => ?_⟩
  · simp only [Val.eq]
    rw [Bool.eq_iff_iff, unitEq_iff, unitEq_iff]
    constructor
    · rintro ⟨a, b, c, d⟩
      exact ⟨by rcases a with a | a | a <;> simp [a], b.symm, c.symm, d.symm⟩
    · rintro ⟨a, b, c, d⟩
      exact ⟨by rcases a with a | a | a <;> simp [a], b.symm, c.symm, d.symm⟩
  · obtain ⟨-, a, b, c⟩ := (unitEq_iff u w).1 h
    simp only [UnitV.mag, a, b, c]

/-- `==` on simple quantities of one class is transitive.  Missing for the full claim: mixing a plain `Unit` between two
classes. -/
theorem C26_unit_trans_partial (u w z : UnitV ℝ) (hw : w.cls ≠ .unit ∨ u.cls = z.cls)
    (h1 : Val.eq (.unit u) (.unit w) = true) (h2 : Val.eq (.unit w) (.unit z) = true) :
    Val.eq (.unit u) (.unit z) = true := by
  obtain ⟨a, b, c, d⟩ := (unitEq_iff u w).1 h1
  obtain ⟨a', b', c', d'⟩ := (unitEq_iff w z).1 h2
  refine (unitEq_iff u z).2 ⟨?_, b.trans b', c.trans c', d.trans d'⟩
  rcases hw with hw | hw
  · rcases a with a | a | a
    · rcases a' with a' | a' | a'
      · exact .inl (a.trans a')
      · exact absurd a' hw
      · exact .inr (.inr a')
    · exact .inr (.inl a)
    · exact absurd a hw
  · exact .inl hw

example : (UCls.length ≠ UCls.unit ∨ UCls.length = UCls.length) ∧
    Val.eq (.unit (⟨.length, 1, c!"m", 2⟩ : UnitV ℝ)) (.unit ⟨.length, 1, c!"m", 2⟩) = true :=
  ⟨.inr rfl, C26_unit_refl_symm_magnitude.1 _⟩

/-- Transitivity is false in general: a `Length`, a plain `Unit` and a `Time` with the same data. -/
theorem C26_unit_trans_false : ¬ ∀ u w z : UnitV ℝ, u.Constructed → w.Constructed → z.Constructed →
    Val.eq (.unit u) (.unit w) = true → Val.eq (.unit w) (.unit z) = true → Val.eq (.unit u) (.unit z) = true := by
  intro h
  have := h ⟨.length, 1, c!"m", 1⟩ ⟨.unit, 1, c!"m", 1⟩ ⟨.time, 1, c!"m", 1⟩ ⟨1, c!"m", 1, rfl⟩ ⟨1, c!"m", 1, rfl⟩
    ⟨1, c!"m", 1, rfl⟩ ((unitEq_iff _ _).2 (by simp)) ((unitEq_iff _ _).2 (by simp))
  have h2 := (unitEq_iff _ _).1 this
  simp at h2

/-! ## C27 -/

/-- Equal compound quantities with at most one unit above and below can be added.  Missing for the full claim: several
units, where the order matters. -/
theorem C27_equal_addable_partial (m o : MultiV ℝ) (h : Val.eq (.multi m) (.multi o) = true)
    (hm : m.top.length ≤ 1 ∧ m.bot.length ≤ 1) (ho : o.top.length ≤ 1 ∧ o.bot.length ≤ 1) :
    ∃ r, Val.add (.multi m) (.multi o) = .ok r := by
  obtain ⟨h1, -, h3, h4⟩ := (multiEq_iff m o).1 h
  have key : ∀ a b : UList, a.length ≤ 1 → b.length ≤ 1 → (∀ u, u ∈ a ↔ u ∈ b) → a = b := by
    intro a b ha hb hab
    match a, b, ha, hb with
    | [], [], _, _ => rfl
    | [], [y], _, _ => exact absurd ((hab y).2 (by simp)) (by simp)
    | [x], [], _, _ => exact absurd ((hab x).1 (by simp)) (by simp)
    | [x], [y], _, _ => have := (hab x).1 (by simp); simp at this; rw [this]
  have e1 := key _ _ hm.1 ho.1 h3
  have e2 := key _ _ hm.2 ho.2 h4
  exact ⟨_, by simp only [Val.add, multiAdd, h1, e1, e2, and_self, if_true]; rfl⟩

example : Val.eq (.multi (⟨.multi, 2, [⟨c!"m", 1⟩], [⟨c!"s", 1⟩]⟩ : MultiV ℝ))
    (.multi ⟨.multi, 2, [⟨c!"m", 1⟩], [⟨c!"s", 1⟩]⟩) = true := C26_multi_equivalence.1 _

/-- The full claim is false: 1 kg·m and 1 m·kg are equal but cannot be added. -/
theorem C27_equal_addable_false : ¬ ∀ m o : MultiV ℝ, Val.eq (.multi m) (.multi o) = true →
    ∃ r, Val.add (.multi m) (.multi o) = .ok r := by
  intro h
  obtain ⟨r, hr⟩ := h ⟨.multi, 1, [⟨c!"kg", 1⟩, ⟨c!"m", 1⟩], []⟩ ⟨.multi, 1, [⟨c!"m", 1⟩, ⟨c!"kg", 1⟩], []⟩
    (C26_multi_order _ _ rfl rfl (List.Perm.swap _ _ _) (List.Perm.refl _))
  simp [Val.add, multiAdd] at hr

/-! ## C29 -/

/-- Objects that are neither numbers nor quantities. -/
def Foreign : Val ℝ → Prop
  | .none => True
  | .other => True
  | .bare => True
  | _ => False

/-- Quantities. -/
def Quantity : Val ℝ → Prop
  | .unit _ => True
  | .multi _ => True
  | _ => False

/-- The operator/operand combinations that do raise TypeError.  Missing for the full claim: `MultiUnit * x` and
`MultiUnit / x`, which return None, and instances of `object` itself in `*`, `/` and `MultiUnit -`. -/
theorem C29_foreign_partial (q f : Val ℝ) (hq : Quantity q) (hf : Foreign f) :
    Val.add q f = .error .typeError ∧ Val.add f q = .error .typeError ∧ Val.sub f q = .error .typeError ∧
    (f ≠ .bare → Val.sub q f = .error .typeError) ∧
    (f ≠ .bare → Val.mul f q = .error .typeError ∧ Val.div f q = .error .typeError) ∧
    (f ≠ .bare → (∃ u, q = .unit u) → Val.mul q f = .error .typeError ∧ Val.div q f = .error .typeError) := by
  cases q <;> cases f <;> simp_all [Quantity, Foreign, Val.add, Val.sub, Val.mul, Val.div, unitAdd, multiAdd,
    unitSub, multiSub, unitRmul, multiRmul, multiRdiv, unitMul, unitDiv]

example : Quantity (.unit ⟨.length, 1, c!"m", 1⟩) ∧ Foreign .other := ⟨trivial, trivial⟩

/-- The full claim is false: a compound quantity times a string returns None, for every compound quantity. -/
theorem C29_foreign_false (m : MultiV ℝ) :
    Val.mul (.multi m) .other = .ok .none ∧ Val.div (.multi m) .none = .ok .none ∧
    Val.mul (.multi m) .bare = .error .indexError := ⟨rfl, rfl, rfl⟩

/-! ## C30 -/

/-- Numbers pass; simple quantities with the required unit pass and all others raise IncorrectUnits; compound quantities
pass exactly when their lists are those of the required string.  Missing for the full claim: the exception raised for
compound quantities with other units (AttributeError instead of IncorrectUnits). -/
theorem C30_check_units_partial (s : Sym) :
    (∀ x : ℝ, checkUnits (.num x) s = .ok ()) ∧
    (∀ u : UnitV ℝ, checkUnits (.unit u) s = if u.unit = s then .ok () else .error .incorrectUnits) ∧
    (∀ (m : MultiV ℝ) (t b : UList), parseUnits s = .ok (t, b) →
      (checkUnits (.multi m) s = .ok () ↔ m.top = t ∧ m.bot = b)) := by
  refine ⟨fun _ => rfl, fun u => ?_, fun m t b h => ?_⟩
  · simp [checkUnits]
  · simp only [checkUnits, h]
    split <;> simp_all

example : parseUnits c!"kg/m*s" = .ok ([⟨c!"kg", 1⟩], [⟨c!"m", 1⟩, ⟨c!"s", 1⟩]) := by decide +kernel

/-- The full claim is false: for every compound quantity with other units the exception is AttributeError. -/
theorem C30_check_units_false (m : MultiV ℝ) (s : Sym) (t b : UList) (h : parseUnits s = .ok (t, b))
    (hne : ¬ (m.top = t ∧ m.bot = b)) : checkUnits (.multi m) s = .error .attributeError := by
  simp [checkUnits, h, hne]

/-- Exponents of simple quantities are not looked at: 1 m² passes as a length in m. -/
theorem C30_check_units_ignores_exponent (u : UnitV ℝ) (e : ℚ) :
    checkUnits (.unit { u with exp := e }) u.unit = .ok () := by simp [checkUnits]

end Verif
