import Verif.Lemmas.Tagged
import Mathlib.Tactic.Linarith

/-!
# C73: computed quantities equal the same quantity written out

`MultiUnit.__eq__` compares sets of `BaseUnit`s, whose hash depends on whether an exponent is an `int` or a `float`.
Quantities read from a string have float exponents.  Here: when does `==` between a computed and a written quantity compare
just the numbers?
-/

namespace Verif

set_option linter.unusedSectionVars false

section
variable {K : Type} [Field K] [LinearOrder K] [PyPow K]

/-- Everything that can be computed from written quantities with the operators of compound quantities.  Simple quantities
take part when they have a float exponent (as those that come out of a division do). -/
inductive Computed : TVal K → Prop
  | num (x : K) : Computed (.num x)
  | written {c : MCls} {v : K} {s : Sym} {m : TMulti K} : mkMultiT c v s = .ok m → Computed (.multi m)
  | simple {u : TSimple K} : u.exp.float = true → Computed (.unit u)
  | mul {a b : TMulti K} {r : TVal K} : Computed (.multi a) → Computed (.multi b) → multiMulMultiT a b = .ok r → Computed r
  | div {a b : TMulti K} {r : TVal K} : Computed (.multi a) → Computed (.multi b) → multiDivMultiT a b = .ok r → Computed r
  | mulUnit {a : TMulti K} {u : TSimple K} {r : TVal K} : Computed (.multi a) → Computed (.unit u) →
      multiMulUnitT a u = .ok r → Computed r
  | divUnit {a : TMulti K} {u : TSimple K} {r : TVal K} : Computed (.multi a) → Computed (.unit u) →
      multiDivUnitT a u = .ok r → Computed r
  | unitDiv {a : TMulti K} {u : TSimple K} {r : TVal K} : Computed (.multi a) → Computed (.unit u) →
      unitDivMultiT u a = .ok r → Computed r
  | unitDivUnit {u o : TSimple K} {r : TVal K} : Computed (.unit u) → Computed (.unit o) → unitDivUnitT u o = .ok r →
      Computed r
  | add {a b : TMulti K} {r : TVal K} : Computed (.multi a) → Computed (.multi b) → multiAddT a b = .ok r → Computed r
  | sub {a b : TMulti K} {r : TVal K} : Computed (.multi a) → Computed (.multi b) → multiSubT a b = .ok r → Computed r
  | pow {a : TMulti K} {e : PyExp} {r : TVal K} : Computed (.multi a) → e.Proper → multiPowT a e = .ok r → Computed r
  /-- Scaling, negation and casts to a subclass keep the units. -/
  | rescale {a : TMulti K} (c : MCls) (v : K) : Computed (.multi a) → Computed (.multi ⟨c, v, a.top, a.bot⟩)
  /-- A number divided by a quantity exchanges the halves. -/
  | recip {a : TMulti K} (v : K) : Computed (.multi a) → Computed (.multi ⟨.multi, v, a.bot, a.top⟩)

/-- The exponents of a value. -/
def TVal.Good : TVal K → Prop
  | .num _ => True
  | .unit u => u.exp.Good
  | .multi m => GoodL m.top ∧ GoodL m.bot

theorem goodL_single {u : TSimple K} (h : (TVal.unit u).Good) : GoodL [⟨u.unit, u.exp⟩] :=
  GoodL.cons (u := ⟨u.unit, u.exp⟩) h .nil

theorem packDivT_good {v : K} {t b : TList} (ht : GoodL t) (hb : GoodL b) : (packDivT v t b).Good := by
  unfold packDivT
  split
  · trivial
  · exact ht _ (by simp)
  · exact (hb _ (by simp)).neg
  · exact ⟨ht, hb⟩

theorem packMulT_good {v : K} {t b : TList} (ht : GoodL t) (hb : GoodL b) : (packMulT v t b).Good := by
  unfold packMulT
  split
  · trivial
  · exact ht _ (by simp)
  · exact ⟨ht, hb⟩

/-- Every exponent of a computed quantity is a float or a multiple of the int 100. -/
theorem computed_good {r : TVal K} (h : Computed r) : r.Good := by
  induction h with
  | num => trivial
  | written h =>
    unfold mkMultiT at h
    split_ifs at h
    · cases h; exact ⟨.nil, .nil⟩
    · split at h
      · cases h
      · next hp =>
        obtain ⟨t, b, e⟩ := parseUnitsT_floats hp
        cases e; cases h
        exact ⟨.floats _, .floats _⟩
  | simple h => exact .inl h
  | mul _ _ h ha hb =>
    unfold multiMulMultiT at h
    split at h
    · cases h
    · next hr => cases h; exact reduceUnitsT_good (ha.1.append hb.1) (ha.2.append hb.2) hr
  | div _ _ h ha hb =>
    unfold multiDivMultiT at h
    split_ifs at h
    · split at h
      · cases h
      · cases h; trivial
    · split at h
      · cases h
      · next hr =>
        obtain ⟨g1, g2⟩ := reduceUnitsT_good (ha.1.append hb.2) (ha.2.append hb.1) hr
        split at h
        · cases h
        · cases h; exact packDivT_good g1 g2
  | mulUnit _ _ h ha hu =>
    unfold multiMulUnitT at h
    split at h
    · cases h
    · next hr =>
      obtain ⟨g1, g2⟩ := reduceUnitsT_good (ha.1.append (goodL_single hu)) ha.2 hr
      cases h; exact packMulT_good g1 g2
  | divUnit _ _ h ha hu =>
    unfold multiDivUnitT at h
    split at h
    · cases h
    · next hr =>
      obtain ⟨g1, g2⟩ := reduceUnitsT_good ha.1 (ha.2.append (goodL_single hu)) hr
      split at h
      · cases h
      · cases h; exact packDivT_good g1 g2
  | unitDiv _ _ h ha hu =>
    unfold unitDivMultiT at h
    split at h
    · cases h
    · next hr =>
      obtain ⟨g1, g2⟩ := reduceUnitsT_good (ha.2.append (goodL_single hu)) ha.1 hr
      split at h
      · cases h
      · cases h; exact packDivT_good g1 g2
  | unitDivUnit _ _ h hu ho =>
    unfold unitDivUnitT at h
    split at h
    · cases h
    · cases h; exact ⟨goodL_single hu, goodL_single ho⟩
  | add _ _ h ha hb =>
    unfold multiAddT at h
    split_ifs at h
    cases h; exact ha
  | sub _ _ h ha hb =>
    unfold multiSubT at h
    split_ifs at h
    cases h; exact ha
  | pow _ he h ha =>
    unfold multiPowT at h
    split at h
    · cases h
    · next hr =>
      obtain ⟨g1, g2⟩ := reducePowT_good (ha.1.pow he) (ha.2.pow he) hr
      split at h
      · cases h
      · cases h; exact ⟨g1, g2⟩
  | rescale _ _ _ ha => exact ha
  | recip _ _ ha => exact ⟨ha.2, ha.1⟩

/-- The exponents of a compound quantity are nonzero and below the cap of 100. -/
def TMulti.Moderate (m : TMulti K) : Prop := ∀ u ∈ m.top ++ m.bot, u.exp.val ≠ 0 ∧ |u.exp.val| < 100

theorem good_moderate {e : PyExp} (h : e.Good) (h0 : e.val ≠ 0) (h1 : |e.val| < 100) : e.float = true := by
  rcases h with h | ⟨k, h⟩
  · exact h
  · exfalso
    rw [h] at h0 h1
    have hk : k ≠ 0 := fun e => h0 (by rw [e]; simp)
    have : (1 : ℚ) ≤ |(k : ℚ)| := by
      rw [← Int.cast_abs]; exact_mod_cast Int.one_le_abs hk
    rw [abs_mul] at h1
    norm_num at h1
    linarith

theorem setEqT_floats {xs ys : TList} (hx : ∀ u ∈ xs, u.exp.float = true) (hy : ∀ u ∈ ys, u.exp.float = true) :
    setEqT xs ys = setEq (eraseL xs) (eraseL ys) := by
  have key : ∀ xs ys : TList, (∀ u ∈ xs, u.exp.float = true) → (∀ u ∈ ys, u.exp.float = true) →
      (xs.all (fun x => ys.any (x.sameElem ·)) = (eraseL xs).all (fun x => decide (x ∈ eraseL ys))) := by
    intro xs ys hx hy
    rw [Bool.eq_iff_iff]
    simp only [List.all_eq_true, List.any_eq_true, decide_eq_true_eq, eraseL, List.mem_map]
    constructor
    · rintro h _ ⟨u, hu, rfl⟩
      obtain ⟨w, hw, hs⟩ := h u hu
      simp only [TUnit.sameElem, Bool.and_eq_true, decide_eq_true_eq] at hs
      exact ⟨w, hw, by simp [TUnit.erase, hs.1.1, hs.1.2]⟩
    · intro h u hu
      obtain ⟨w, hw, hs⟩ := h _ ⟨u, hu, rfl⟩
      simp only [TUnit.erase, BaseUnit.mk.injEq] at hs
      exact ⟨w, hw, by simp [TUnit.sameElem, hs.1, hs.2, hx u hu, hy w hw]⟩
  unfold setEqT setEq
  rw [key xs ys hx hy, key ys xs hy hx]

/-- `==` between two computed quantities compares value, class and the sets of units with numerical exponents: it is the
`==` of the main model. -/
theorem C73_equality_partial (r w : TMulti K) (hr : Computed (.multi r)) (hw : Computed (.multi w)) (mr : r.Moderate)
    (mw : w.Moderate) : multiEqT r w = multiEq r.erase w.erase := by
  have fl : ∀ m : TMulti K, Computed (.multi m) → m.Moderate → (∀ u ∈ m.top, u.exp.float = true) ∧
      ∀ u ∈ m.bot, u.exp.float = true := by
    intro m hm mm
    obtain ⟨g1, g2⟩ := computed_good hm
    exact ⟨fun u hu => good_moderate (g1 u hu) (mm u (by simp [hu])).1 (mm u (by simp [hu])).2,
      fun u hu => good_moderate (g2 u hu) (mm u (by simp [hu])).1 (mm u (by simp [hu])).2⟩
  obtain ⟨h1, h2⟩ := fl r hr mr
  obtain ⟨h3, h4⟩ := fl w hw mw
  simp only [multiEqT, multiEq]
  rw [setEqT_floats h1 h3, setEqT_floats h2 h4]
  rfl

/-- In particular a computed quantity equals the one written with the same value and units, in any order. -/
theorem C73_written_out_partial (r w : TMulti K) (s : Sym) (hr : Computed (.multi r)) (mr : r.Moderate)
    (hw : mkMultiT r.cls r.value s = .ok w) (ht : (eraseL w.top).Perm (eraseL r.top))
    (hb : (eraseL w.bot).Perm (eraseL r.bot)) : multiEqT r w = true := by
  have mem : ∀ {l l' : TList}, (eraseL l).Perm (eraseL l') → ∀ u ∈ l, ∃ u' ∈ l', u'.exp.val = u.exp.val := by
    intro l l' hp u hu
    obtain ⟨u', hu', e⟩ := List.mem_map.1 (hp.subset (List.mem_map.2 ⟨u, hu, rfl⟩))
    exact ⟨u', hu', congrArg BaseUnit.exp e⟩
  have mw : w.Moderate := by
    intro u hu
    rcases List.mem_append.1 hu with hu | hu
    · obtain ⟨u', h1, h2⟩ := mem ht u hu
      rw [← h2]; exact mr u' (by simp [h1])
    · obtain ⟨u', h1, h2⟩ := mem hb u hu
      rw [← h2]; exact mr u' (by simp [h1])
  have e1 : w.cls = r.cls ∧ w.value = r.value := by
    unfold mkMultiT at hw
    split_ifs at hw
    · cases hw; exact ⟨rfl, rfl⟩
    · split at hw
      · cases hw
      · cases hw; exact ⟨rfl, rfl⟩
  rw [C73_equality_partial r w hr (.written hw) mr mw]
  have hs : ∀ {a b : UList}, b.Perm a → setEq a b = true := by
    intro a b hp
    simp only [setEq, Bool.and_eq_true, List.all_eq_true, decide_eq_true_eq]
    exact ⟨fun x hx => hp.symm.subset hx, fun x hx => hp.subset hx⟩
  simp only [multiEq, TMulti.erase, Bool.and_eq_true]
  exact ⟨⟨⟨decide_eq_true e1.1.symm, decide_eq_true e1.2.symm⟩, hs ht⟩, hs hb⟩

end

/-- A quantity multiplied twice by a length given as a plain number of metres (int exponent 1) never equals the same
quantity written out, whatever the values. -/
theorem C73_simple_never (x y z : ℚ) (a b r w : TMulti ℚ) (ha : mkMultiT .multi x c!"kg/s" = .ok a)
    (hb : multiMulUnitT a ⟨.length, y, c!"m", ⟨1, false⟩⟩ = .ok (.multi b))
    (hr : multiMulUnitT b ⟨.length, z, c!"m", ⟨1, false⟩⟩ = .ok (.multi r))
    (hw : mkMultiT .multi (x * y * z) c!"kg*m^2/s" = .ok w) : multiEqT r w = false := by
  have e1 : mkMultiT .multi x c!"kg/s" = .ok (⟨.multi, x, [⟨c!"kg", ⟨1, true⟩⟩], [⟨c!"s", ⟨1, true⟩⟩]⟩ : TMulti ℚ) := by
    have : parseUnitsT c!"kg/s" = .ok ([⟨c!"kg", ⟨1, true⟩⟩], [⟨c!"s", ⟨1, true⟩⟩]) := by decide +kernel
    simp [mkMultiT, this]
  rw [e1] at ha
  cases ha
  have e2 : reduceUnitsT (K := ℚ) true true ([⟨c!"kg", ⟨1, true⟩⟩] ++ [⟨c!"m", ⟨1, false⟩⟩]) [⟨c!"s", ⟨1, true⟩⟩] =
      .ok ([⟨c!"kg", ⟨1, true⟩⟩, ⟨c!"m", ⟨1, false⟩⟩], [⟨c!"s", ⟨1, true⟩⟩], 1) := by decide +kernel
  simp only [multiMulUnitT, e2, packMulT] at hb
  cases hb
  have e3 : reduceUnitsT (K := ℚ) true true ([⟨c!"kg", ⟨1, true⟩⟩, ⟨c!"m", ⟨1, false⟩⟩] ++ [⟨c!"m", ⟨1, false⟩⟩])
      [⟨c!"s", ⟨1, true⟩⟩] = .ok ([⟨c!"kg", ⟨1, true⟩⟩, ⟨c!"m", ⟨2, false⟩⟩], [⟨c!"s", ⟨1, true⟩⟩], 1) := by decide +kernel
  simp only [multiMulUnitT, e3, packMulT] at hr
  cases hr
  have e4 : parseUnitsT c!"kg*m^2/s" = .ok ([⟨c!"kg", ⟨1, true⟩⟩, ⟨c!"m", ⟨2, true⟩⟩], [⟨c!"s", ⟨1, true⟩⟩]) := by
    decide +kernel
  simp only [mkMultiT, e4] at hw
  rw [if_neg (by decide)] at hw
  cases hw
  have e5 : setEqT [⟨c!"kg", ⟨1, true⟩⟩, ⟨c!"m", ⟨2, false⟩⟩] [⟨c!"kg", ⟨1, true⟩⟩, ⟨c!"m", ⟨2, true⟩⟩] = false := by
    decide +kernel
  simp [multiEqT, e5]

/-- The full claim, for simple operands of any kind, is false: `MultiUnit(2, "kg/s") * Length(3, "m") * Length(4, "m")`
against `MultiUnit(24, "kg*m^2/s")`. -/
theorem C73_written_out_false : ¬ ∀ (x y z : ℚ) (a b r w : TMulti ℚ), mkMultiT .multi x c!"kg/s" = .ok a →
    multiMulUnitT a ⟨.length, y, c!"m", ⟨1, false⟩⟩ = .ok (.multi b) →
    multiMulUnitT b ⟨.length, z, c!"m", ⟨1, false⟩⟩ = .ok (.multi r) →
    mkMultiT .multi r.value c!"kg*m^2/s" = .ok w → w.erase = r.erase → multiEqT r w = true := by
  intro h
  have := h 2 3 4 ⟨.multi, 2, [⟨c!"kg", ⟨1, true⟩⟩], [⟨c!"s", ⟨1, true⟩⟩]⟩
    ⟨.multi, 6, [⟨c!"kg", ⟨1, true⟩⟩, ⟨c!"m", ⟨1, false⟩⟩], [⟨c!"s", ⟨1, true⟩⟩]⟩
    ⟨.multi, 24, [⟨c!"kg", ⟨1, true⟩⟩, ⟨c!"m", ⟨2, false⟩⟩], [⟨c!"s", ⟨1, true⟩⟩]⟩
    ⟨.multi, 24, [⟨c!"kg", ⟨1, true⟩⟩, ⟨c!"m", ⟨2, true⟩⟩], [⟨c!"s", ⟨1, true⟩⟩]⟩
    (by decide +kernel) (by decide +kernel) (by decide +kernel) (by decide +kernel) (by decide +kernel)
  revert this
  decide +kernel

/-- The exponents must be below 100: recognised units get the int 100 of the cap, which is printed `100` and not `100.0`.
`MultiUnit(2, "A/s^199") * MultiUnit(3, "kg^100*m^200/s")` is not equal to `MultiUnit(6, "A*J^100")`. -/
theorem C73_moderate_needed : ∃ a b r w : TMulti ℚ, mkMultiT .multi 2 c!"A/s^199" = .ok a ∧
    mkMultiT .multi 3 c!"kg^100*m^200/s" = .ok b ∧ multiMulMultiT a b = .ok (.multi r) ∧
    mkMultiT .multi 6 c!"A*J^100" = .ok w ∧ w.erase = r.erase ∧ multiEqT r w = false :=
  ⟨⟨.multi, 2, [⟨c!"A", ⟨1, true⟩⟩], [⟨c!"s", ⟨199, true⟩⟩]⟩,
    ⟨.multi, 3, [⟨c!"kg", ⟨100, true⟩⟩, ⟨c!"m", ⟨200, true⟩⟩], [⟨c!"s", ⟨1, true⟩⟩]⟩,
    ⟨.multi, 6, [⟨c!"A", ⟨1, true⟩⟩, ⟨c!"J", ⟨100, false⟩⟩], []⟩,
    ⟨.multi, 6, [⟨c!"A", ⟨1, true⟩⟩, ⟨c!"J", ⟨100, true⟩⟩], []⟩,
    by decide +kernel, by decide +kernel, by decide +kernel, by decide +kernel, by decide +kernel, by decide +kernel⟩

/-- The numbers never depend on the types: forgetting them commutes with products, quotients and powers, so every theorem
about the main model holds here. -/
theorem C73_numbers_unaffected {K : Type} [Field K] [LinearOrder K] [PyPow K] (m o : TMulti K) (u : TSimple K) (e : PyExp) :
    (multiMulMultiT m o).map TVal.erase = multiMulMulti m.erase o.erase ∧
    (multiDivMultiT m o).map TVal.erase = multiDivMulti m.erase o.erase ∧
    (multiMulUnitT m u).map TVal.erase = multiMulUnit m.erase u.erase ∧
    (multiDivUnitT m u).map TVal.erase = multiDivUnit m.erase u.erase ∧
    (unitDivMultiT u m).map TVal.erase = unitDivMulti u.erase m.erase ∧
    (multiPowT m e).map TVal.erase = multiPow m.erase e.val :=
  ⟨multiMulMultiT_erase m o, multiDivMultiT_erase m o, multiMulUnitT_erase m u, multiDivUnitT_erase m u,
    unitDivMultiT_erase u m, multiPowT_erase m e⟩

/-- The same for the operations of simple quantities with different units, and for sums and differences. -/
theorem C73_numbers_unaffected_simple {K : Type} [Field K] [LinearOrder K] [PyPow K] (u o : TSimple K) (h : u.unit ≠ o.unit)
    (m n : TMulti K) :
    (unitDivUnitT u o).map TVal.erase = unitDiv u.erase (.unit o.erase) ∧
    Except.ok (unitMulUnitT u o).erase = unitMul u.erase (.unit o.erase) ∧
    (multiAddT m n).map TVal.erase = multiAdd m.erase (.multi n.erase) ∧
    (multiSubT m n).map TVal.erase = multiSub m.erase (.multi n.erase) := by
  refine ⟨?_, ?_, multiAddT_erase m n, multiSubT_erase m n⟩
  · unfold unitDivUnitT unitDiv
    simp only [TSimple.erase, h, if_false]
    cases pyDiv u.value o.value <;> rfl
  · simp only [unitMul, TSimple.erase, h, and_false, if_false]
    rfl

/-- The product of two simple quantities with different units equals the same quantity written out, whatever the types of
the exponents: an exponent of one is never printed. -/
theorem C73_simple_product {K : Type} [Field K] [LinearOrder K] [PyPow K] (u o : TSimple K) (w : TMulti K)
    (hc : w.cls = .multi) (hv : w.value = u.value * o.value) (ht : (eraseL w.top).Perm [⟨u.unit, 1⟩, ⟨o.unit, 1⟩])
    (hb : w.bot = []) : ∃ r, unitMulUnitT u o = .multi r ∧ multiEqT r w = true := by
  refine ⟨_, rfl, ?_⟩
  have key : ∀ x : TUnit, x.erase = ⟨u.unit, 1⟩ ∨ x.erase = ⟨o.unit, 1⟩ ↔ x.erase ∈ [(⟨u.unit, 1⟩ : BaseUnit), ⟨o.unit, 1⟩] := by
    intro x; simp
  have same : ∀ x y : TUnit, x.erase = y.erase → x.exp.val = 1 → x.sameElem y = true := by
    intro x y he h1
    simp only [TUnit.erase, BaseUnit.mk.injEq] at he
    simp [TUnit.sameElem, he.1, ← he.2, h1]
  have one : ∀ x : TUnit, x ∈ w.top → x.erase = ⟨u.unit, 1⟩ ∨ x.erase = ⟨o.unit, 1⟩ := fun x hx =>
    (key x).mpr (ht.subset (List.mem_map_of_mem hx))
  have one' : ∀ x : TUnit, x.erase = ⟨u.unit, 1⟩ ∨ x.erase = ⟨o.unit, 1⟩ → x.exp.val = 1 := by
    rintro x (h | h) <;> exact congrArg BaseUnit.exp h
  have find : ∀ b : BaseUnit, b ∈ [(⟨u.unit, 1⟩ : BaseUnit), ⟨o.unit, 1⟩] → ∃ x ∈ w.top, x.erase = b := by
    intro b hb
    obtain ⟨x, hx, e⟩ := List.mem_map.1 (ht.symm.subset hb)
    exact ⟨x, hx, e⟩
  simp only [multiEqT, setEqT, hc, hv, hb, decide_true, Bool.true_and, List.all_nil, Bool.and_true, Bool.and_eq_true,
    List.all_cons, List.any_eq_true, List.all_eq_true]
  refine ⟨⟨?_, ?_⟩, ?_⟩
  · obtain ⟨x, hx, e⟩ := find ⟨u.unit, 1⟩ (by simp)
    exact ⟨x, hx, same _ _ e.symm rfl⟩
  · obtain ⟨x, hx, e⟩ := find ⟨o.unit, 1⟩ (by simp)
    exact ⟨x, hx, same _ _ e.symm rfl⟩
  · intro x hx
    rcases one x hx with h | h
    · exact ⟨⟨u.unit, ⟨1, false⟩⟩, by simp, same _ _ h (one' x (.inl h))⟩
    · exact ⟨⟨o.unit, ⟨1, false⟩⟩, by simp, same _ _ h (one' x (.inr h))⟩

/-- `Mass(2, "kg") * Length(3, "m") == MultiUnit(6, "m*kg")`. -/
example : ∃ w r : TMulti ℚ, mkMultiT .multi 6 c!"m*kg" = .ok w ∧
    unitMulUnitT ⟨.mass, 2, c!"kg", ⟨1, false⟩⟩ ⟨.length, 3, c!"m", ⟨1, false⟩⟩ = .multi r ∧ multiEqT r w = true := by
  have hw : mkMultiT .multi 6 c!"m*kg" = .ok (⟨.multi, 6, [⟨c!"m", ⟨1, true⟩⟩, ⟨c!"kg", ⟨1, true⟩⟩], []⟩ : TMulti ℚ) := by
    decide +kernel
  obtain ⟨r, h1, h2⟩ := C73_simple_product (K := ℚ) ⟨.mass, 2, c!"kg", ⟨1, false⟩⟩ ⟨.length, 3, c!"m", ⟨1, false⟩⟩
    ⟨.multi, 6, [⟨c!"m", ⟨1, true⟩⟩, ⟨c!"kg", ⟨1, true⟩⟩], []⟩ rfl (by norm_num) (List.Perm.swap ..) rfl
  exact ⟨_, r, hw, h1, h2⟩

/-- The hypotheses are met by `MultiUnit(2, "m/s") * MultiUnit(3, "kg*m/mol")` and `MultiUnit(6, "m^2*kg/s*mol")`. -/
example : ∃ r w : TMulti ℚ, Computed (.multi r) ∧ r.Moderate ∧ mkMultiT r.cls r.value c!"m^2*kg/s*mol" = .ok w ∧
    (eraseL w.top).Perm (eraseL r.top) ∧ (eraseL w.bot).Perm (eraseL r.bot) := by
  refine ⟨⟨.multi, 6, [⟨c!"kg", ⟨1, true⟩⟩, ⟨c!"m", ⟨2, true⟩⟩], [⟨c!"s", ⟨1, true⟩⟩, ⟨c!"mol", ⟨1, true⟩⟩]⟩,
    ⟨.multi, 6, [⟨c!"m", ⟨2, true⟩⟩, ⟨c!"kg", ⟨1, true⟩⟩], [⟨c!"s", ⟨1, true⟩⟩, ⟨c!"mol", ⟨1, true⟩⟩]⟩, ?_, ?_, ?_, ?_, ?_⟩
  · refine Computed.mul (a := ⟨.multi, 2, [⟨c!"m", ⟨1, true⟩⟩], [⟨c!"s", ⟨1, true⟩⟩]⟩)
      (b := ⟨.multi, 3, [⟨c!"kg", ⟨1, true⟩⟩, ⟨c!"m", ⟨1, true⟩⟩], [⟨c!"mol", ⟨1, true⟩⟩]⟩)
      (.written (c := .multi) (v := 2) (s := c!"m/s") ?_) (.written (c := .multi) (v := 3) (s := c!"kg*m/mol") ?_) ?_ <;>
      decide +kernel
  · intro u hu
    simp only [List.cons_append, List.nil_append, List.mem_cons, List.not_mem_nil, or_false] at hu
    rcases hu with rfl | rfl | rfl | rfl <;> norm_num
  · decide +kernel
  · exact List.Perm.swap ..
  · exact .refl _

end Verif
