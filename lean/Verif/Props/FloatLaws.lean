import Verif.Props.CanonicalSigned
import Verif.Props.Canonical
import Verif.Props.TripDouble
import Verif.Lemmas.FloatOps
import Verif.Lemmas.Closure
import Verif.Lemmas.Construct

/-!
# C123: laws of arithmetic in double precision

Which of the laws of addition and multiplication hold for quantities exactly, every operation rounded, and which do not.
-/

namespace Verif

/-- The same exception, or results that compare equal. -/
def SameResult {K : Type} [LinearOrder K] (x y : PyM (Val K)) : Prop :=
  (∃ e, x = .error e ∧ y = .error e) ∨ ∃ v w, x = .ok v ∧ y = .ok w ∧ Val.eq v w = true

theorem Val.eq_self {K : Type} [LinearOrder K] (v : Val K) (h : v ≠ .other) (h' : v ≠ .bare) : Val.eq v v = true := by
  cases v with
  | num x => simp [Val.eq]
  | unit u => simp only [Val.eq, unitEq, unitEqMethod, decide_true, Bool.true_or, Bool.and_self, ite_self]
  | multi m =>
    have : ∀ l : UList, setEq l l = true := fun l => by simp [setEq]
    simp [Val.eq, multiEq, this]
  | none => rfl
  | other => exact absurd rfl h
  | bare => exact absurd rfl h'

/-! ## The factor of the prefixes -/

section
set_option linter.unusedSectionVars false
variable {K : Type} [Zero K] [One K] [Add K] [Sub K] [Mul K] [Div K] [Neg K] [NatCast K] [RatCast K] [LinearOrder K] [PyPow K]

theorem prefixFactorLoop_skip (inv : Bool) (ps : List (Sym × BaseUnit)) (l : UList) (f : K) :
    prefixFactorLoop inv f (ps ++ l.map fun u => (([] : Sym), u)) = prefixFactorLoop inv f ps ∧
      prefixFactorLoop inv f ((l.map fun u => (([] : Sym), u)) ++ ps) = prefixFactorLoop inv f ps := by
  constructor
  · induction ps generalizing f with
    | nil =>
      induction l with
      | nil => rfl
      | cons u l ih => simpa [prefixFactorLoop] using ih
    | cons p ps ih =>
      obtain ⟨p, u⟩ := p
      simp only [List.cons_append, prefixFactorLoop, ih]
  · induction l with
    | nil => rfl
    | cons u l ih => simpa [prefixFactorLoop] using ih

theorem strip_unprefixed_list {l : UList} (hl : UnprefixedList l) : mapPy stripUnit l = .ok (l.map fun u => ([], u)) := by
  induction l with
  | nil => rfl
  | cons u l ih =>
    have h1 := (hl u (by simp)).strip
    have h2 := ih (fun v hv => hl v (List.mem_cons_of_mem _ hv))
    simp [mapPy, h1, h2]

theorem mapPy_two {α β : Type} {g : α → PyM β} {l m : List α} {ps qs : List β} (h1 : mapPy g l = .ok ps) (h2 : mapPy g m = .ok qs) :
    mapPy g (l ++ m) = .ok (ps ++ qs) := by
  induction l generalizing ps with
  | nil => cases h1; exact h2
  | cons x l ih =>
    simp only [mapPy] at h1
    split at h1
    · cases h1
    next y hy =>
    split at h1
    · cases h1
    next ys hys =>
    cases h1
    simp only [List.cons_append, mapPy, hy, ih hys]

/-- Units without prefixes may be written before or after the others without changing the factor. -/
theorem prefix_factor_swap {at' ab bt bb t b t' b' : UList} {f f' : K} (h1 : WellPrefixedList at') (h2 : WellPrefixedList ab)
    (h3 : UnprefixedList bt) (h4 : UnprefixedList bb) (h : deconstructPrefixes (at' ++ bt) (ab ++ bb) = .ok (t, b, f))
    (h' : deconstructPrefixes (bt ++ at') (bb ++ ab) = .ok (t', b', f')) : f = f' := by
  obtain ⟨ps, e1, -⟩ := strip_list h1
  obtain ⟨qs, e2, -⟩ := strip_list h2
  have e3 := strip_unprefixed_list h3
  have e4 := strip_unprefixed_list h4
  unfold deconstructPrefixes at h h'
  rw [mapPy_two e1 e3, mapPy_two e2 e4] at h
  rw [mapPy_two e3 e1, mapPy_two e4 e2] at h'
  simp only [(prefixFactorLoop_skip (K := K) _ _ _ _).1] at h
  simp only [(prefixFactorLoop_skip (K := K) _ _ _ _).2] at h'
  split at h
  · cases h
  next g hg =>
  simp only [hg] at h'
  split at h
  · cases h
  next g' hg' =>
  simp only [hg'] at h'
  cases h
  cases h'
  rfl

theorem reduceUnits_prefix {x y : Bool} {top bot t b : UList} {f : K} (h : reduceUnits x y top bot = .ok (t, b, f)) :
    ∃ t' b', deconstructPrefixes top bot = .ok (t', b', f) := by
  unfold reduceUnits at h
  split at h
  · cases h
  next t' b' f' hd =>
  split at h
  · cases h
  simp only at h
  split at h
  · cases h
  cases h
  exact ⟨_, _, hd⟩

end

variable {r : ℝ → ℝ} (hr : DoubleRounding r)

theorem fl_add_comm (x y : Fl hr.arith) : x + y = y + x := congrArg Fl.mk (congrArg r (add_comm x.val y.val))

theorem fl_mul_comm (x y : Fl hr.arith) : x * y = y * x := congrArg Fl.mk (congrArg r (mul_comm x.val y.val))

/-! ## Commutativity -/

/-- `a + b` is `b + a`: compound quantities. -/
theorem C123_add_comm_compound (a b : MultiV (Fl hr.arith)) : Val.add (.multi a) (.multi b) = Val.add (.multi b) (.multi a) := by
  simp only [Val.add, multiAdd]
  by_cases h : a.cls = b.cls
  · by_cases h' : a.top = b.top ∧ a.bot = b.bot
    · rw [if_pos h, if_pos h', if_pos h.symm, if_pos ⟨h'.1.symm, h'.2.symm⟩, fl_add_comm, h'.1, h'.2]
    · rw [if_pos h, if_neg h', if_pos h.symm, if_neg fun e => h' ⟨e.1.symm, e.2.symm⟩]
  · rw [if_neg h, if_neg fun e => h e.symm]

/-- `a + b` is `b + a`: simple quantities of the same class. -/
theorem C123_add_comm_simple (a b : UnitV (Fl hr.arith)) (h : a.cls = b.cls) :
    Val.add (.unit a) (.unit b) = Val.add (.unit b) (.unit a) := by
  simp only [Val.add, unitAdd]
  have i1 : isInstance b.cls a.cls := Or.inr h.symm
  have i2 : isInstance a.cls b.cls := Or.inr h
  rw [if_pos i1, if_pos i2]
  by_cases h' : a.unit = b.unit ∧ a.exp = b.exp
  · rw [if_pos h', if_pos ⟨h'.1.symm, h'.2.symm⟩, fl_add_comm, h, h'.1, h'.2]
  · rw [if_neg h', if_neg fun e => h' ⟨e.1.symm, e.2.symm⟩]

/-- `a * b` and `b * a`: simple quantities. -/
theorem C123_mul_comm_simple (a b : UnitV (Fl hr.arith)) :
    SameResult (Val.mul (.unit a) (.unit b)) (Val.mul (.unit b) (.unit a)) := by
  simp only [Val.mul, unitMul]
  by_cases h : a.cls = b.cls ∧ a.unit = b.unit
  · rw [if_pos h, if_pos ⟨h.1.symm, h.2.symm⟩, fl_mul_comm, h.1, h.2, add_comm]
    cases hm : mkUnit b.cls (b.value * a.value) b.unit (b.exp + a.exp) with
    | error e => exact .inl ⟨e, rfl, rfl⟩
    | ok u => exact .inr ⟨_, _, rfl, rfl, Val.eq_self _ nofun nofun⟩
  · rw [if_neg h, if_neg fun e => h ⟨e.1.symm, e.2.symm⟩, fl_mul_comm]
    refine .inr ⟨_, _, rfl, rfl, ?_⟩
    simp only [Val.eq, multiEq, setEq, decide_true, Bool.true_and]
    simp

/-- `a * b` and `b * a`: a compound and a simple quantity. -/
theorem C123_mul_comm_mixed (a : MultiV (Fl hr.arith)) (b : UnitV (Fl hr.arith)) :
    Val.mul (.multi a) (.unit b) = Val.mul (.unit b) (.multi a) := rfl

/-- `a * x` and `x * a` for a number `x`. -/
theorem C123_mul_comm_number (x : Fl hr.arith) :
    (∀ a : MultiV (Fl hr.arith), Val.mul (.multi a) (.num x) = Val.mul (.num x) (.multi a)) ∧
      ∀ a : UnitV (Fl hr.arith), Val.mul (.unit a) (.num x) = Val.mul (.num x) (.unit a) := by
  refine ⟨fun a => ?_, fun a => rfl⟩
  simp only [Val.mul, multiMul, multiRmul, fl_mul_comm hr a.value x]

/-- `a * b` and `b * a`: compound quantities, one of them without prefixes; negative exponents only above the line. -/
theorem C123_mul_comm_compound_partial (a b : MultiV (Fl hr.arith)) (ha : a.Genuine) (hb : b.Plain) (na : a.SignedAbove)
    (nb : b.SignedAbove) :
    ∃ v w, Val.mul (.multi a) (.multi b) = .ok v ∧ Val.mul (.multi b) (.multi a) = .ok w ∧ Val.eq v w = true := by
  obtain ⟨t, bo, t', bo', e, e', s1, s2⟩ := reduce_signed_canonical (wellPrefixed_append ha.1 hb.1.well) (wellPrefixed_append ha.2 hb.2.well)
    (wellPrefixed_append hb.1.well ha.1) (wellPrefixed_append hb.2.well ha.2) (na.1.append nb.1) (na.2.append nb.2)
    (nb.1.append na.1) (nb.2.append na.2) (fun w _ => by simp only [net, wsum_append]; ring)
  have lift : ∀ {top bot t b : UList} {f : ℝ}, reduceUnits (K := ℝ) true true top bot = .ok (t, b, f) →
      ∃ g, reduceUnits (K := Fl hr.arith) true true top bot = .ok (t, b, g) := by
    intro top bot t b f h
    rcases (near_reduceUnits (A := hr.arith) true true top bot).elim with ⟨e, -, e2⟩ | ⟨⟨t1, b1, f1⟩, ⟨t2, b2, f2⟩, e1, e2, h1, h2, -⟩
    · rw [h] at e2; cases e2
    · rw [h] at e2; cases e2
      simp only at h1 h2
      subst h1 h2
      exact ⟨_, e1⟩
  obtain ⟨g, hg⟩ := lift e
  obtain ⟨g', hg'⟩ := lift e'
  obtain ⟨_, _, d1⟩ := reduceUnits_prefix hg
  obtain ⟨_, _, d2⟩ := reduceUnits_prefix hg'
  have := prefix_factor_swap ha.1 ha.2 hb.1 hb.2 d1 d2
  subst this
  refine ⟨.multi ⟨.multi, a.value * b.value * g, t, bo⟩, .multi ⟨.multi, b.value * a.value * g, t', bo'⟩,
    by simp only [Val.mul, multiMul, multiMulMulti, hg], by simp only [Val.mul, multiMul, multiMulMulti, hg'], ?_⟩
  simp only [Val.eq, multiEq, s1.setEq, s2.setEq, fl_mul_comm hr a.value b.value, decide_true, Bool.and_self]

/-- 3 km/hr times 2 kg/m. -/
example : ∃ v w, Val.mul (.multi (⟨.multi, ⟨3⟩, [⟨c!"km", 1⟩], [⟨c!"hr", 1⟩]⟩ : MultiV (Fl hr.arith)))
      (.multi ⟨.multi, ⟨2⟩, [⟨c!"kg", 1⟩], [⟨c!"m", 1⟩]⟩) = .ok v ∧
    Val.mul (.multi ⟨.multi, ⟨2⟩, [⟨c!"kg", 1⟩], [⟨c!"m", 1⟩]⟩) (.multi ⟨.multi, ⟨3⟩, [⟨c!"km", 1⟩], [⟨c!"hr", 1⟩]⟩) = .ok w ∧
    Val.eq v w = true :=
  C123_mul_comm_compound_partial hr _ _ (by constructor <;> dsimp only <;> decide) (by constructor <;> dsimp only <;> decide)
    (MultiV.NoNegative.above (by constructor <;> simp [AllNonneg])) (MultiV.NoNegative.above (by constructor <;> simp [AllNonneg]))

/-! ## Subtraction, negation, division by itself -/

include hr in
theorem round_eq_zero {x : ℝ} : r x = 0 ↔ x = 0 := by
  constructor
  · intro h
    have := hr.close x
    rw [h, zero_sub, abs_neg] at this
    have h0 := abs_nonneg x
    have : |x| = 0 := by norm_num at this; linarith
    exact abs_eq_zero.1 this
  · rintro rfl
    exact hr.fixes 0 ⟨0, 0, by norm_num, by simp⟩

/-- A difference is zero exactly when the numbers are equal: compound quantities. -/
theorem C123_sub_zero_compound (a b : MultiV (Fl hr.arith)) (ht : a.top = b.top) (hb : a.bot = b.bot) :
    ∃ d : MultiV (Fl hr.arith), Val.sub (.multi a) (.multi b) = .ok (.multi d) ∧ (d.value = 0 ↔ a.value = b.value) := by
  refine ⟨⟨.multi, a.value - b.value, a.top, a.bot⟩, by simp only [Val.sub, multiSub, if_pos (And.intro ht hb)], ?_⟩
  rw [← Fl.val_injective.eq_iff, ← Fl.val_injective.eq_iff]
  exact (round_eq_zero hr).trans sub_eq_zero

/-- A difference is zero exactly when the numbers are equal: simple quantities. -/
theorem C123_sub_zero_simple (a b : UnitV (Fl hr.arith)) (ha : a.Constructed) (hc : a.cls = b.cls) (hu : a.unit = b.unit)
    (he : a.exp = b.exp) :
    ∃ d : UnitV (Fl hr.arith), Val.sub (.unit a) (.unit b) = .ok (.unit d) ∧ d.unit = a.unit ∧ d.exp = a.exp ∧
      (d.value = 0 ↔ a.value = b.value) := by
  refine ⟨⟨a.cls, a.value - b.value, a.unit, a.exp⟩, ?_, rfl, rfl, ?_⟩
  · simp only [Val.sub, unitSub]
    have i1 : isInstance b.cls a.cls := Or.inr hc.symm
    rw [if_pos i1, if_pos ⟨hu, he⟩, ha.rebuild]
    rfl
  · rw [← Fl.val_injective.eq_iff, ← Fl.val_injective.eq_iff]
    exact (round_eq_zero hr).trans sub_eq_zero

/-- `-(a - b)` is `b - a` if numbers and their negatives are rounded alike: compound quantities. -/
theorem C123_neg_sub_compound (odd : ∀ x, r (-x) = -r x) (a b : MultiV (Fl hr.arith)) (ht : a.top = b.top) (hb : a.bot = b.bot) :
    ∃ d, Val.sub (.multi a) (.multi b) = .ok d ∧ Val.neg d = Val.sub (.multi b) (.multi a) := by
  refine ⟨.multi ⟨.multi, a.value - b.value, a.top, a.bot⟩, by simp only [Val.sub, multiSub, if_pos (And.intro ht hb)], ?_⟩
  simp only [Val.sub, multiSub, Val.neg, multiNeg, ht, hb, and_self, if_true]
  have : -(a.value - b.value) = b.value - a.value := Fl.val_injective (by
    show -r (a.value.val - b.value.val) = r (b.value.val - a.value.val)
    rw [← odd, neg_sub])
  rw [this]

/-- `-(a - b)` is `b - a`: simple quantities. -/
theorem C123_neg_sub_simple (odd : ∀ x, r (-x) = -r x) (a b : UnitV (Fl hr.arith)) (ha : a.Constructed) (hc : a.cls = b.cls)
    (hu : a.unit = b.unit) (he : a.exp = b.exp) :
    ∃ d, Val.sub (.unit a) (.unit b) = .ok d ∧ Val.neg d = Val.sub (.unit b) (.unit a) := by
  refine ⟨.unit ⟨a.cls, a.value - b.value, a.unit, a.exp⟩, ?_, ?_⟩
  · simp only [Val.sub, unitSub]
    have i1 : isInstance b.cls a.cls := Or.inr hc.symm
    rw [if_pos i1, if_pos ⟨hu, he⟩, ha.rebuild]
    rfl
  · have : -(a.value - b.value) = b.value - a.value := Fl.val_injective (by
      show -r (a.value.val - b.value.val) = r (b.value.val - a.value.val)
      rw [← odd, neg_sub])
    simp only [Val.sub, unitSub, Val.neg, unitNeg]
    have i2 : isInstance a.cls b.cls := Or.inr hc
    rw [if_pos i2, if_pos ⟨hu.symm, he.symm⟩, this, hc, hu, he]

/-- The rounding of Python treats a number and its negative alike. -/
theorem C123_python_odd (x : ℝ) : toBits53 nearestEven (-x) = -toBits53 nearestEven x := by
  have key : ∀ y : ℝ, nearestEven (-y) = -nearestEven y := by
    intro y
    have h0 := Int.floor_le y
    have h1 := Int.lt_floor_add_one y
    rcases eq_or_lt_of_le h0 with h | h
    · have e : y = ((⌊y⌋ : ℤ) : ℝ) := h.symm
      rw [e, ← Int.cast_neg, nearestEven_nearest.int, nearestEven_nearest.int]
    · have hf : ⌊-y⌋ = -⌊y⌋ - 1 := by
        rw [Int.floor_eq_iff]; push_cast; constructor <;> linarith
      unfold nearestEven
      rw [hf]
      push_cast
      split_ifs <;> first | omega | (exfalso; linarith)
  unfold toBits53
  by_cases h : x = 0
  · simp [h]
  · rw [if_neg h, if_neg (neg_ne_zero.2 h), abs_neg, neg_div, key]
    push_cast
    ring

/-- `a / a` is the number one: compound quantities. -/
theorem C123_div_self_compound (a : MultiV (Fl hr.arith)) (h : a.value.val ≠ 0) : Val.div (.multi a) (.multi a) = .ok (.num 1) := by
  have h' : a.value ≠ 0 := fun e => h (congrArg Fl.val e)
  have : a.value / a.value = 1 := Fl.val_injective (by
    show r (a.value.val / a.value.val) = 1
    rw [div_self h]
    have := hr.fixes ((1 : ℤ) : ℝ) (isDouble_int (by norm_num))
    exact_mod_cast this)
  simp only [Val.div, multiDiv, multiDivMulti, and_self, if_true, pyDiv, if_neg h', this]

/-- `a / a` is the number one: simple quantities. -/
theorem C123_div_self_simple (a : UnitV (Fl hr.arith)) (h : a.value.val ≠ 0) : Val.div (.unit a) (.unit a) = .ok (.num 1) := by
  have h' : a.value ≠ 0 := fun e => h (congrArg Fl.val e)
  have : a.value / a.value = 1 := Fl.val_injective (by
    show r (a.value.val / a.value.val) = 1
    rw [div_self h]
    have := hr.fixes ((1 : ℤ) : ℝ) (isDouble_int (by norm_num))
    exact_mod_cast this)
  simp only [Val.div, unitDiv, pyDiv, if_neg h', this, sub_self, if_true]

/-- `a + a` is `a * 2`, and `a * 2 / 2` is `a`: compound quantities. -/
theorem C123_double_compound (a : MultiV (Fl hr.arith)) (hd : IsDouble a.value.val) :
    ∃ d, Val.add (.multi a) (.multi a) = .ok d ∧ Val.mul (.multi a) (.num ⟨2⟩) = .ok d ∧
      Val.div d (.num ⟨2⟩) = .ok (.multi ⟨.multi, a.value, a.top, a.bot⟩) := by
  have h2 : (⟨2⟩ : Fl hr.arith) ≠ 0 := fun e => by
    have : (2 : ℝ) = 0 := congrArg Fl.val e
    norm_num at this
  have e1 : a.value + a.value = a.value * ⟨2⟩ := Fl.val_injective (by
    show r (a.value.val + a.value.val) = r (a.value.val * 2)
    rw [mul_two])
  have e2 : a.value * ⟨2⟩ / ⟨2⟩ = a.value := Fl.val_injective (by
    show r (r (a.value.val * 2) / 2) = a.value.val
    have : IsDouble (a.value.val * 2) := by
      obtain ⟨k, j, hk, e⟩ := hd
      exact ⟨k, j + 1, hk, by rw [e, zpow_add₀ (by norm_num)]; ring⟩
    rw [hr.fixes _ this, mul_div_cancel_right₀ _ (by norm_num), hr.fixes _ hd])
  refine ⟨.multi ⟨.multi, a.value * ⟨2⟩, a.top, a.bot⟩, ?_, rfl, ?_⟩
  · simp only [Val.add, multiAdd, if_true, and_self, e1]
  · simp only [Val.div, multiDiv, pyDiv, if_neg h2, e2]

/-- `a + a` is `a * 2`, and `a * 2 / 2` is `a`: simple quantities without an exponent. -/
theorem C123_double_simple (a : UnitV (Fl hr.arith)) (ha : a.Constructed) (he : a.exp = 1) (hd : IsDouble a.value.val) :
    ∃ d, Val.add (.unit a) (.unit a) = .ok d ∧ Val.mul (.unit a) (.num ⟨2⟩) = .ok d ∧ Val.div d (.num ⟨2⟩) = .ok (.unit a) := by
  have h2 : (⟨2⟩ : Fl hr.arith) ≠ 0 := fun e => by
    have : (2 : ℝ) = 0 := congrArg Fl.val e
    norm_num at this
  have e1 : a.value + a.value = a.value * ⟨2⟩ := Fl.val_injective (by
    show r (a.value.val + a.value.val) = r (a.value.val * 2)
    rw [mul_two])
  have e2 : a.value * ⟨2⟩ / ⟨2⟩ = a.value := Fl.val_injective (by
    show r (r (a.value.val * 2) / 2) = a.value.val
    have : IsDouble (a.value.val * 2) := by
      obtain ⟨k, j, hk, e⟩ := hd
      exact ⟨k, j + 1, hk, by rw [e, zpow_add₀ (by norm_num)]; ring⟩
    rw [hr.fixes _ this, mul_div_cancel_right₀ _ (by norm_num), hr.fixes _ hd])
  have i1 : isInstance a.cls a.cls := Or.inr rfl
  refine ⟨.unit ⟨a.cls, a.value * ⟨2⟩, a.unit, 1⟩, ?_, ?_, ?_⟩
  · simp only [Val.add, unitAdd, if_pos i1, and_self, if_true, ha.rebuild, e1, he, wrapUnit]
  · simp only [Val.mul, unitMul, ha.rebuild, wrapUnit]
  · simp only [Val.div, unitDiv, pyDiv, if_neg h2, e2, ha.rebuild, wrapUnit]
    rw [← he]

/-- 3.5 mL taken twice. -/
example : (⟨.volume, ⟨7 / 2⟩, c!"mL", 1⟩ : UnitV (Fl hr.arith)).Constructed ∧ IsDouble (7 / 2) :=
  ⟨⟨⟨7 / 2⟩, c!"mL", 1, rfl⟩, 7, -1, by norm_num, by norm_num⟩

/-! ## Laws that do not hold -/

/-- A quantity of the general class and one of a particular class: the sum exists in one order only. -/
theorem C123_add_comm_false : ∃ (a b : UnitV (Fl hr.arith)) (s : Val (Fl hr.arith)),
    Val.add (.unit a) (.unit b) = .ok s ∧ Val.add (.unit b) (.unit a) = .error .typeError :=
  ⟨⟨.unit, 1, c!"m", 1⟩, ⟨.length, 1, c!"m", 1⟩, _, rfl, rfl⟩

/-- 0.1 kg/s + 0.4 kg/s - 0.4 kg/s is not 0.1 kg/s. -/
theorem C123_add_sub_false {N : ℝ → ℤ} (hN : IsNearest N) (hm : Monotone N) :
    ∃ a b s d : MultiV (Fl (toBits53_rounding hN hm).arith), a.value = ((1 / 10 : ℚ) : Fl _) ∧ b.value = ((4 / 10 : ℚ) : Fl _) ∧
      Val.add (.multi a) (.multi b) = .ok (.multi s) ∧ Val.sub (.multi s) (.multi b) = .ok (.multi d) ∧
      Val.eq (.multi d) (.multi a) = false := by
  have hr := toBits53_rounding hN hm
  have t1 : toBits53 N ((1 / 10 : ℚ) : ℝ) = (7205759403792794 : ℤ) * 2 ^ (-56 : ℤ) := by
    rw [toBits53_eq hN 7205759403792794 (-56)]
    all_goals norm_num [abs_lt]
  have t4 : toBits53 N ((4 / 10 : ℚ) : ℝ) = (7205759403792794 : ℤ) * 2 ^ (-54 : ℤ) := by
    rw [toBits53_eq hN 7205759403792794 (-54)]
    all_goals norm_num [abs_lt]
  have s1 : toBits53 N ((7205759403792794 : ℤ) * 2 ^ (-56 : ℤ) + (7205759403792794 : ℤ) * 2 ^ (-54 : ℤ)) =
      (4503599627370496 : ℤ) * 2 ^ (-53 : ℤ) := by
    rw [toBits53_eq hN 4503599627370496 (-53)]
    all_goals norm_num [abs_lt]
  have d1 : toBits53 N ((4503599627370496 : ℤ) * 2 ^ (-53 : ℤ) - (7205759403792794 : ℤ) * 2 ^ (-54 : ℤ)) =
      (7205759403792792 : ℤ) * 2 ^ (-56 : ℤ) := by
    rw [toBits53_eq hN 7205759403792792 (-56)]
    all_goals norm_num [abs_lt]
  refine ⟨⟨.multi, ((1 / 10 : ℚ) : Fl _), [⟨c!"kg", 1⟩], [⟨c!"s", 1⟩]⟩, ⟨.multi, ((4 / 10 : ℚ) : Fl _), [⟨c!"kg", 1⟩], [⟨c!"s", 1⟩]⟩,
    _, _, rfl, rfl, rfl, rfl, ?_⟩
  simp only [Val.eq, multiEq]
  rw [Bool.and_assoc, Bool.and_assoc]
  apply Bool.and_eq_false_imp.2
  intro _
  rw [decide_eq_false, Bool.false_and]
  intro h
  have h : toBits53 N (toBits53 N (toBits53 N ((1 / 10 : ℚ) : ℝ) + toBits53 N ((4 / 10 : ℚ) : ℝ)) - toBits53 N ((4 / 10 : ℚ) : ℝ)) =
      toBits53 N ((1 / 10 : ℚ) : ℝ) := congrArg Fl.val h
  rw [t1, t4, s1, d1] at h
  norm_num at h

/-- 1 kg/s divided by 49 and multiplied by 49 is not 1 kg/s. -/
theorem C123_div_mul_false {N : ℝ → ℤ} (hN : IsNearest N) (hm : Monotone N) :
    ∃ a s d : MultiV (Fl (toBits53_rounding hN hm).arith), a.value = ⟨1⟩ ∧
      Val.div (.multi a) (.num ⟨49⟩) = .ok (.multi s) ∧ Val.mul (.multi s) (.num ⟨49⟩) = .ok (.multi d) ∧
      Val.eq (.multi d) (.multi a) = false := by
  have hr := toBits53_rounding hN hm
  have q : toBits53 N (1 / 49) = (5882252574524729 : ℤ) * 2 ^ (-58 : ℤ) := by
    rw [toBits53_eq hN 5882252574524729 (-58)]
    all_goals norm_num [abs_lt]
  have p : toBits53 N ((5882252574524729 : ℤ) * 2 ^ (-58 : ℤ) * 49) = (9007199254740991 : ℤ) * 2 ^ (-53 : ℤ) := by
    rw [toBits53_eq hN 9007199254740991 (-53)]
    all_goals norm_num [abs_lt]
  have h49 : (⟨49⟩ : Fl (toBits53_rounding hN hm).arith) ≠ 0 := fun e => by
    have : (49 : ℝ) = 0 := congrArg Fl.val e
    norm_num at this
  refine ⟨⟨.multi, ⟨1⟩, [⟨c!"kg", 1⟩], [⟨c!"s", 1⟩]⟩, ⟨.multi, ⟨1⟩ / ⟨49⟩, [⟨c!"kg", 1⟩], [⟨c!"s", 1⟩]⟩,
    _, rfl, by simp only [Val.div, multiDiv, pyDiv, if_neg h49], rfl, ?_⟩
  simp only [Val.eq, multiEq]
  rw [Bool.and_assoc, Bool.and_assoc]
  apply Bool.and_eq_false_imp.2
  intro _
  rw [decide_eq_false, Bool.false_and]
  intro h
  have h : toBits53 N (toBits53 N (1 / 49) * 49) = 1 := congrArg Fl.val h
  rw [q, p] at h
  norm_num at h

/-- 1 km times 1 dm dm is not 1 dm dm times 1 km. -/
theorem C123_mul_comm_false {N : ℝ → ℤ} (hN : IsNearest N) (hm : Monotone N) :
    ∃ a b p q : MultiV (Fl (toBits53_rounding hN hm).arith), a.value = 1 ∧ b.value = 1 ∧
      Val.mul (.multi a) (.multi b) = .ok (.multi p) ∧ Val.mul (.multi b) (.multi a) = .ok (.multi q) ∧
      Val.eq (.multi p) (.multi q) = false := by
  have hr := toBits53_rounding hN hm
  have t1 : toBits53 N ((1 / 10 : ℚ) : ℝ) = (7205759403792794 : ℤ) * 2 ^ (-56 : ℤ) := by
    rw [toBits53_eq hN 7205759403792794 (-56)]
    all_goals norm_num [abs_lt]
  have tk : toBits53 N ((1000 : ℚ) : ℝ) = 1000 := by
    have := hr.fixes ((1000 : ℤ) : ℝ) (isDouble_int (by norm_num))
    push_cast at this ⊢; exact this
  have m1 : toBits53 N (1000 * ((7205759403792794 : ℤ) * 2 ^ (-56 : ℤ))) = 100 := by
    rw [toBits53_eq hN 7036874417766400 (-46)]
    all_goals norm_num [abs_lt]
  have m2 : toBits53 N (100 * ((7205759403792794 : ℤ) * 2 ^ (-56 : ℤ))) = 10 := by
    rw [toBits53_eq hN 5629499534213120 (-49)]
    all_goals norm_num [abs_lt]
  have m3 : toBits53 N ((7205759403792794 : ℤ) * 2 ^ (-56 : ℤ) * ((7205759403792794 : ℤ) * 2 ^ (-56 : ℤ))) =
      (5764607523034236 : ℤ) * 2 ^ (-59 : ℤ) := by
    rw [toBits53_eq hN 5764607523034236 (-59)]
    all_goals norm_num [abs_lt]
  have m4 : toBits53 N ((5764607523034236 : ℤ) * 2 ^ (-59 : ℤ) * 1000) = (5629499534213121 : ℤ) * 2 ^ (-49 : ℤ) := by
    rw [toBits53_eq hN 5629499534213121 (-49)]
    all_goals norm_num [abs_lt]
  have f0 := hr.fixes _ (isDouble_scaled (k := 7205759403792794) (j := -56) (by norm_num))
  have f1 := hr.fixes _ (isDouble_scaled (k := 5629499534213121) (j := -49) (by norm_num))
  have f10 : toBits53 N 10 = 10 := by exact_mod_cast hr.fixes ((10 : ℤ) : ℝ) (isDouble_int (by norm_num))
  have f1000 : toBits53 N 1000 = 1000 := by exact_mod_cast hr.fixes ((1000 : ℤ) : ℝ) (isDouble_int (by norm_num))
  have one : toBits53 N 1 = 1 := by exact_mod_cast hr.fixes ((1 : ℤ) : ℝ) (isDouble_int (by norm_num))
  have lit : ∀ (p : ℚ), (PyPow.pow ((p : ℚ) : Fl hr.arith) 1 : PyM (Fl hr.arith)) = .ok ⟨toBits53 N (toBits53 N ((p : ℚ) : ℝ))⟩ :=
    fun p => pow_arith hr _
  have d1 : deconstructPrefixes (K := Fl hr.arith) [⟨c!"km", 1⟩, ⟨c!"dm", 1⟩, ⟨c!"dm", 1⟩] [] =
      .ok ([⟨c!"m", 1⟩, ⟨c!"m", 1⟩, ⟨c!"m", 1⟩], [], ⟨10⟩) := by
    have e1 : mapPy stripUnit [⟨c!"km", 1⟩, ⟨c!"dm", 1⟩, ⟨c!"dm", 1⟩] =
      .ok [(c!"k", ⟨c!"m", 1⟩), (c!"d", ⟨c!"m", 1⟩), (c!"d", ⟨c!"m", 1⟩)] := by decide +kernel
    have e2 : prefixFactorLoop (K := Fl hr.arith) false 1 [(c!"k", ⟨c!"m", 1⟩), (c!"d", ⟨c!"m", 1⟩), (c!"d", ⟨c!"m", 1⟩)] = .ok ⟨10⟩ := by
      simp only [prefixFactorLoop, show prefixFactor c!"k" = some 1000 by decide +kernel, show prefixFactor c!"d" = some (1 / 10) by decide +kernel,
        lit, Bool.false_eq_true, if_false, reduceCtorEq]
      show Except.ok (Fl.mk (toBits53 N (toBits53 N (toBits53 N (1 * toBits53 N (toBits53 N ((1000 : ℚ) : ℝ))) *
        toBits53 N (toBits53 N ((1 / 10 : ℚ) : ℝ))) * toBits53 N (toBits53 N ((1 / 10 : ℚ) : ℝ))))) = _
      rw [tk, t1, f0, one_mul, f1000, f1000, m1, m2]
    simp only [deconstructPrefixes, e1, e2]
    rfl
  have d2 : deconstructPrefixes (K := Fl hr.arith) [⟨c!"dm", 1⟩, ⟨c!"dm", 1⟩, ⟨c!"km", 1⟩] [] =
      .ok ([⟨c!"m", 1⟩, ⟨c!"m", 1⟩, ⟨c!"m", 1⟩], [], ⟨(5629499534213121 : ℤ) * 2 ^ (-49 : ℤ)⟩) := by
    have e1 : mapPy stripUnit [⟨c!"dm", 1⟩, ⟨c!"dm", 1⟩, ⟨c!"km", 1⟩] =
      .ok [(c!"d", ⟨c!"m", 1⟩), (c!"d", ⟨c!"m", 1⟩), (c!"k", ⟨c!"m", 1⟩)] := by decide +kernel
    have e2 : prefixFactorLoop (K := Fl hr.arith) false 1 [(c!"d", ⟨c!"m", 1⟩), (c!"d", ⟨c!"m", 1⟩), (c!"k", ⟨c!"m", 1⟩)] =
        .ok ⟨(5629499534213121 : ℤ) * 2 ^ (-49 : ℤ)⟩ := by
      simp only [prefixFactorLoop, show prefixFactor c!"k" = some 1000 by decide +kernel, show prefixFactor c!"d" = some (1 / 10) by decide +kernel,
        lit, Bool.false_eq_true, if_false, reduceCtorEq]
      show Except.ok (Fl.mk (toBits53 N (toBits53 N (toBits53 N (1 * toBits53 N (toBits53 N ((1 / 10 : ℚ) : ℝ))) *
        toBits53 N (toBits53 N ((1 / 10 : ℚ) : ℝ))) * toBits53 N (toBits53 N ((1000 : ℚ) : ℝ))))) = _
      rw [tk, t1, f0, one_mul, f0, f1000, m3, m4]
    simp only [deconstructPrefixes, e1, e2]
    rfl
  have rest : ∀ f : Fl hr.arith, ∀ {l : UList}, deconstructPrefixes (K := Fl hr.arith) l [] = .ok ([⟨c!"m", 1⟩, ⟨c!"m", 1⟩, ⟨c!"m", 1⟩], [], f) →
      reduceUnits (K := Fl hr.arith) true true l [] = .ok ([⟨c!"m", 3⟩], [], f) := by
    intro f l h
    have g1 : deconstructUnits [⟨c!"m", 1⟩, ⟨c!"m", 1⟩, ⟨c!"m", 1⟩] [] = .ok ([⟨c!"m", 1⟩, ⟨c!"m", 1⟩, ⟨c!"m", 1⟩], []) := by decide +kernel
    have g2 : (let r := cancelUnits (combineUnits [⟨c!"m", 1⟩, ⟨c!"m", 1⟩, ⟨c!"m", 1⟩]) (combineUnits []); simplifyUnits r.1 r.2) =
      .ok ([⟨c!"m", 3⟩], []) := by decide +kernel
    simp only at g2
    simp only [reduceUnits, h, g1, if_true, g2]
  refine ⟨⟨.multi, 1, [⟨c!"km", 1⟩], []⟩, ⟨.multi, 1, [⟨c!"dm", 1⟩, ⟨c!"dm", 1⟩], []⟩, ⟨.multi, 1 * 1 * ⟨10⟩, [⟨c!"m", 3⟩], []⟩,
    ⟨.multi, 1 * 1 * ⟨(5629499534213121 : ℤ) * 2 ^ (-49 : ℤ)⟩, [⟨c!"m", 3⟩], []⟩, rfl, rfl, ?_, ?_, ?_⟩
  · simp only [Val.mul, multiMul, multiMulMulti, List.cons_append, List.nil_append, rest _ d1]
  · simp only [Val.mul, multiMul, multiMulMulti, List.cons_append, List.nil_append, rest _ d2]
  · simp only [Val.eq, multiEq]
    rw [Bool.and_assoc, Bool.and_assoc]
    apply Bool.and_eq_false_imp.2
    intro _
    rw [decide_eq_false, Bool.false_and]
    intro h
    have h : toBits53 N (toBits53 N (1 * 1) * 10) = toBits53 N (toBits53 N (1 * 1) * ((5629499534213121 : ℤ) * 2 ^ (-49 : ℤ))) := congrArg Fl.val h
    rw [one_mul, one, one_mul, one_mul, f10, f1] at h
    norm_num at h

end Verif
