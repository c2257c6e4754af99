import Verif.Lemmas.FloatConvert
import Verif.Lemmas.Parse
import Verif.Units.Expr

/-!
# C78: floating point results are close to the exact ones

Every arithmetic whose operations are accurate to a relative precision `ε` (double precision: `-log (1 - 2⁻⁵³)`, see
`double`).  The floating point run and the exact run of the same operation end in the same exception, or return objects of
the same class with the same units whose values differ by at most the stated number of rounding errors.
-/

namespace Verif

variable {A : FloatArith} {k l : ℝ}

/-- The number in a value. -/
def Val.amount : Val ℝ → ℝ
  | .num x => x
  | .unit u => u.value
  | .multi m => m.value
  | _ => 0

theorem Val.roundings_nonneg {K : Type} (x : Val K) : 0 ≤ x.roundings := by
  cases x <;> simp only [Val.roundings] <;>
    first | exact le_rfl | exact Verif.roundings_nonneg _ | exact add_nonneg (roundings_list_nonneg _) (roundings_list_nonneg _)

/-- Products. -/
theorem C78_product {x y : Val (Fl A)} {x' y' : Val ℝ} (hx : x.Near k x') (hy : y.Near l y') :
    SameOutcome (Val.Near (k + l + (2 + x'.roundings + y'.roundings) * A.ε)) (x.mul y) (x'.mul y') := by
  have he := A.nonneg
  have r1 := mul_nonneg x'.roundings_nonneg he
  have r2 := mul_nonneg y'.roundings_nonneg he
  cases x <;> cases x' <;> simp only [Val.Near] at hx <;> cases y <;> cases y' <;> simp only [Val.Near] at hy
  all_goals simp only [Val.mul, unitMul, multiMul, unitRmul, multiRmul]
  all_goals try rfl
  all_goals try exact trivial
  case num.num.num.num => exact (near_mul hx hy).mono (by linarith)
  case num.num.unit.unit =>
    obtain ⟨h1, h2, h3, h4⟩ := hy
    rw [h1, h2]
    exact near_wrapUnit (near_mkUnit _ ((near_mul h4 hx).mono (by linarith)) _ _)
  case num.num.multi.multi =>
    obtain ⟨h1, h2, h3, h4⟩ := hy
    exact ⟨rfl, h2, h3, (near_mul hx h4).mono (by linarith)⟩
  case unit.unit.num.num =>
    obtain ⟨h1, h2, h3, h4⟩ := hx
    rw [h1, h2]
    exact near_wrapUnit (near_mkUnit _ ((near_mul h4 hy).mono (by linarith)) _ _)
  case unit.unit.unit.unit =>
    obtain ⟨h1, h2, h3, h4⟩ := hx
    obtain ⟨g1, g2, g3, g4⟩ := hy
    rw [h1, h2, h3, g1, g2, g3]
    split
    · exact near_wrapUnit (near_mkUnit _ ((near_mul h4 g4).mono (by linarith)) _ _)
    · exact ⟨rfl, rfl, rfl, (near_mul h4 g4).mono (by linarith)⟩
  case unit.unit.multi.multi =>
    exact (near_multiMulUnit hy hx).mono fun _ _ h => h.mono (by linarith)
  case multi.multi.num.num =>
    obtain ⟨h1, h2, h3, h4⟩ := hx
    exact ⟨rfl, h2, h3, (near_mul h4 hy).mono (by linarith)⟩
  case multi.multi.unit.unit =>
    exact (near_multiMulUnit hx hy).mono fun _ _ h => h.mono (by linarith)
  case multi.multi.multi.multi => exact near_multiMulMulti hx hy

/-- Quotients. -/
theorem C78_quotient {x y : Val (Fl A)} {x' y' : Val ℝ} (hx : x.Near k x') (hy : y.Near l y') :
    SameOutcome (Val.Near (k + l + (2 + x'.roundings + y'.roundings) * A.ε)) (x.div y) (x'.div y') := by
  have he := A.nonneg
  have r1 := mul_nonneg x'.roundings_nonneg he
  have r2 := mul_nonneg y'.roundings_nonneg he
  cases x <;> cases x' <;> simp only [Val.Near] at hx <;> cases y <;> cases y' <;> simp only [Val.Near] at hy
  all_goals simp only [Val.div, unitDiv, multiDiv, multiRdiv]
  all_goals try rfl
  all_goals try exact trivial
  case num.num.num.num =>
    rcases (near_pyDiv hx hy).elim with ⟨e, e1, e2⟩ | ⟨a, b, e1, e2, h⟩
    · simp only [e1, e2]; rfl
    · simp only [e1, e2]; exact h.mono (by linarith)
  case num.num.multi.multi =>
    obtain ⟨h1, h2, h3, h4⟩ := hy
    rcases (near_pyDiv hx h4).elim with ⟨e, e1, e2⟩ | ⟨a, b, e1, e2, h⟩
    · simp only [e1, e2]; rfl
    · simp only [e1, e2]; exact ⟨rfl, h3, h2, h.mono (by linarith)⟩
  case unit.unit.num.num =>
    obtain ⟨h1, h2, h3, h4⟩ := hx
    rcases (near_pyDiv h4 hy).elim with ⟨e, e1, e2⟩ | ⟨a, b, e1, e2, h⟩
    · simp only [e1, e2]; rfl
    · simp only [e1, e2, h1, h2, h3]
      exact near_wrapUnit (near_mkUnit _ (h.mono (by linarith)) _ _)
  case unit.unit.unit.unit =>
    obtain ⟨h1, h2, h3, h4⟩ := hx
    obtain ⟨g1, g2, g3, g4⟩ := hy
    rcases (near_pyDiv h4 g4).elim with ⟨e, e1, e2⟩ | ⟨a, b, e1, e2, h⟩
    · simp only [e1, e2]; rfl
    · simp only [e1, e2, h1, h2, h3, g2, g3]
      split
      · split
        · exact h.mono (by linarith)
        · exact near_wrapUnit (near_mkUnit _ (h.mono (by linarith)) _ _)
      · exact ⟨rfl, rfl, rfl, h.mono (by linarith)⟩
  case unit.unit.multi.multi =>
    exact (near_unitDivMulti hx hy).mono fun _ _ h => h.mono (by linarith)
  case multi.multi.num.num =>
    obtain ⟨h1, h2, h3, h4⟩ := hx
    rcases (near_pyDiv h4 hy).elim with ⟨e, e1, e2⟩ | ⟨a, b, e1, e2, h⟩
    · simp only [e1, e2]; rfl
    · simp only [e1, e2]; exact ⟨rfl, h2, h3, h.mono (by linarith)⟩
  case multi.multi.unit.unit => exact near_multiDivUnit hx hy
  case multi.multi.multi.multi => exact near_multiDivMulti hx hy

/-- Powers. -/
theorem C78_power {x : Val (Fl A)} {x' : Val ℝ} (hx : x.Near k x') (e : ℚ) :
    SameOutcome (Val.Near (|(e : ℝ)| * k + A.ε)) (x.pow e) (x'.pow e) := by
  cases x <;> cases x' <;> simp only [Val.Near] at hx <;> simp only [Val.pow]
  case none.none => rfl
  case other.other => rfl
  case bare.bare => rfl
  case num.num =>
    rcases (near_pow hx e).elim with ⟨er, e1, e2⟩ | ⟨a, b, e1, e2, h⟩
    · simp only [e1, e2]; rfl
    · simp only [e1, e2]; exact h
  case unit.unit =>
    obtain ⟨h1, h2, h3, h4⟩ := hx
    unfold unitPow
    rcases (near_pow h4 e).elim with ⟨er, e1, e2⟩ | ⟨a, b, e1, e2, h⟩
    · simp only [e1, e2]; rfl
    · simp only [e1, e2, h1, h2, h3]; exact near_wrapUnit (near_mkUnit _ h _ _)
  case multi.multi =>
    obtain ⟨h1, h2, h3, h4⟩ := hx
    unfold multiPow
    rw [h2, h3]
    split
    · rfl
    · rcases (near_pow h4 e).elim with ⟨er, e1, e2⟩ | ⟨a, b, e1, e2, h⟩
      · simp only [e1, e2]; rfl
      · simp only [e1, e2]; exact ⟨rfl, rfl, rfl, h⟩

/-- Negation. -/
theorem C78_negation {x : Val (Fl A)} {x' : Val ℝ} (hx : x.Near k x') : SameOutcome (Val.Near k) x.neg x'.neg := by
  cases x <;> cases x' <;> simp only [Val.Near] at hx <;> simp only [Val.neg]
  case none.none => rfl
  case other.other => rfl
  case bare.bare => rfl
  case num.num => exact Close.neg hx
  case unit.unit =>
    obtain ⟨h1, h2, h3, h4⟩ := hx
    unfold unitNeg
    rw [h1, h2, h3]
    exact near_wrapUnit (near_mkUnit _ h4.neg _ _)
  case multi.multi =>
    obtain ⟨h1, h2, h3, h4⟩ := hx
    exact ⟨h1, h2, h3, h4.neg⟩

/-- Sums of quantities of the same sign. -/
theorem C78_sum {x y : Val (Fl A)} {x' y' : Val ℝ} (hx : x.Near k x') (hy : y.Near l y')
    (hs : 0 ≤ x'.amount * y'.amount) : SameOutcome (Val.Near (max k l + A.ε)) (x.add y) (x'.add y') := by
  have hx' := hx.mono (le_max_left k l)
  have hy' := hy.mono (le_max_right k l)
  clear hx hy
  cases x <;> cases x' <;> simp only [Val.Near] at hx' <;> cases y <;> cases y' <;> simp only [Val.Near] at hy'
  all_goals simp only [Val.add, unitAdd, multiAdd]
  all_goals try rfl
  all_goals simp only [Val.amount] at hs
  case num.num.num.num => exact near_add hx' hy' hs
  case unit.unit.num.num =>
    obtain ⟨h1, h2, h3, h4⟩ := hx'
    rw [h1, h2]
    exact near_wrapUnit (near_mkUnit _ (near_add h4 hy' hs) _ _)
  case unit.unit.unit.unit =>
    obtain ⟨h1, h2, h3, h4⟩ := hx'
    obtain ⟨g1, g2, g3, g4⟩ := hy'
    rw [h1, h2, h3, g1, g2, g3]
    split
    · split
      · exact near_wrapUnit (near_mkUnit _ (near_add h4 g4 hs) _ _)
      · rfl
    · rfl
  case multi.multi.multi.multi =>
    obtain ⟨h1, h2, h3, h4⟩ := hx'
    obtain ⟨g1, g2, g3, g4⟩ := hy'
    rw [h1, h2, h3, g1, g2, g3]
    split
    · split
      · exact ⟨rfl, rfl, rfl, near_add h4 g4 hs⟩
      · rfl
    · rfl

/-- Differences of quantities of opposite sign. -/
theorem C78_difference {x y : Val (Fl A)} {x' y' : Val ℝ} (hx : x.Near k x') (hy : y.Near l y')
    (hs : x'.amount * y'.amount ≤ 0) : SameOutcome (Val.Near (max k l + A.ε)) (x.sub y) (x'.sub y') := by
  have hx' := hx.mono (le_max_left k l)
  have hy' := hy.mono (le_max_right k l)
  clear hx hy
  cases x <;> cases x' <;> simp only [Val.Near] at hx' <;> cases y <;> cases y' <;> simp only [Val.Near] at hy'
  all_goals simp only [Val.sub, unitSub, multiSub]
  all_goals try rfl
  all_goals simp only [Val.amount] at hs
  case num.num.num.num => exact near_sub hx' hy' hs
  case unit.unit.num.num =>
    obtain ⟨h1, h2, h3, h4⟩ := hx'
    rw [h1, h2]
    exact near_wrapUnit (near_mkUnit _ (near_sub h4 hy' hs) _ _)
  case unit.unit.unit.unit =>
    obtain ⟨h1, h2, h3, h4⟩ := hx'
    obtain ⟨g1, g2, g3, g4⟩ := hy'
    rw [h1, h2, h3, g1, g2, g3]
    split
    · split
      · exact near_wrapUnit (near_mkUnit _ (near_sub h4 g4 hs) _ _)
      · rfl
    · rfl
  case multi.multi.multi.multi =>
    obtain ⟨h1, h2, h3, h4⟩ := hx'
    obtain ⟨g1, g2, g3, g4⟩ := hy'
    rw [h2, h3, g2, g3]
    split
    · exact ⟨rfl, rfl, rfl, near_sub h4 g4 hs⟩
    · rfl

/-! ## Sums in general -/

/-- The same kind of object with the same units; the values differ by at most `b`. -/
def Val.Within (b : ℝ) : Val (Fl A) → Val ℝ → Prop
  | .num x, .num y => |x.val - y| ≤ b
  | .unit x, .unit y => x.cls = y.cls ∧ x.unit = y.unit ∧ x.exp = y.exp ∧ |x.value.val - y.value| ≤ b
  | .multi x, .multi y => x.cls = y.cls ∧ x.top = y.top ∧ x.bot = y.bot ∧ |x.value.val - y.value| ≤ b
  | _, _ => False

theorem within_sum {x y x' y' s : ℝ} (hx : Close k x x') (hy : Close k y y') (h : Close A.ε s (x + y)) :
    |s - (x' + y')| ≤ (Real.exp (k + A.ε) - 1) * (|x'| + |y'|) := by
  have h1 := h.abs_sub_le
  have h2 := hx.abs_sub_le
  have h3 := hy.abs_sub_le
  have e1 : 1 ≤ Real.exp A.ε := Real.one_le_exp A.nonneg
  have b1 : |x + y| ≤ Real.exp k * (|x'| + |y'|) := by
    have a1 : |x| ≤ |x'| + |x - x'| := by have := abs_add_le x' (x - x'); simpa using this
    have a2 : |y| ≤ |y'| + |y - y'| := by have := abs_add_le y' (y - y'); simpa using this
    have := abs_add_le x y
    linarith
  have b2 : |s - (x' + y')| ≤ |s - (x + y)| + |x - x'| + |y - y'| := by
    have e : s - (x' + y') = (s - (x + y)) + (x - x') + (y - y') := by ring
    rw [e]
    exact (abs_add_le _ _).trans (by linarith [abs_add_le (s - (x + y)) (x - x')])
  rw [Real.exp_add]
  have b3 : (Real.exp A.ε - 1) * |x + y| ≤ (Real.exp A.ε - 1) * (Real.exp k * (|x'| + |y'|)) :=
    mul_le_mul_of_nonneg_left b1 (by linarith)
  nlinarith

/-- Sums of any sign: the error is relative to the sum of the absolute values. -/
theorem C78_sum_absolute {x y : Val (Fl A)} {x' y' : Val ℝ} (hx : x.Near k x') (hy : y.Near l y') :
    SameOutcome (Val.Within ((Real.exp (max k l + A.ε) - 1) * (|x'.amount| + |y'.amount|))) (x.add y) (x'.add y') := by
  have hx' := hx.mono (le_max_left k l)
  have hy' := hy.mono (le_max_right k l)
  clear hx hy
  have mk : ∀ (c : UCls) (v : Fl A) (w b : ℝ) (s : Sym) (e : ℚ), |v.val - w| ≤ b →
      SameOutcome (Val.Within b) (wrapUnit (mkUnit c v s e)) (wrapUnit (mkUnit c w s e)) := by
    intro c v w b s e h
    unfold mkUnit
    cases c
    all_goals simp only
    all_goals repeat' split
    all_goals first | exact ⟨rfl, rfl, rfl, h⟩ | rfl
  cases x <;> cases x' <;> simp only [Val.Near] at hx' <;> cases y <;> cases y' <;> simp only [Val.Near] at hy'
  all_goals simp only [Val.add, unitAdd, multiAdd]
  all_goals try rfl
  all_goals simp only [Val.amount]
  case num.num.num.num => exact within_sum hx' hy' (A.add_close _ _)
  case unit.unit.num.num =>
    obtain ⟨h1, h2, h3, h4⟩ := hx'
    rw [h1, h2]
    exact mk _ _ _ _ _ _ (within_sum h4 hy' (A.add_close _ _))
  case unit.unit.unit.unit =>
    obtain ⟨h1, h2, h3, h4⟩ := hx'
    obtain ⟨g1, g2, g3, g4⟩ := hy'
    rw [h1, h2, h3, g1, g2, g3]
    split
    · split
      · exact mk _ _ _ _ _ _ (within_sum h4 g4 (A.add_close _ _))
      · rfl
    · rfl
  case multi.multi.multi.multi =>
    obtain ⟨h1, h2, h3, h4⟩ := hx'
    obtain ⟨g1, g2, g3, g4⟩ := hy'
    rw [h1, h2, h3, g1, g2, g3]
    split
    · split
      · exact ⟨rfl, rfl, rfl, within_sum h4 g4 (A.add_close _ _)⟩
      · rfl
    · rfl

/-- Differences of any sign. -/
theorem C78_difference_absolute {x y : Val (Fl A)} {x' y' : Val ℝ} (hx : x.Near k x') (hy : y.Near l y') :
    SameOutcome (Val.Within ((Real.exp (max k l + A.ε) - 1) * (|x'.amount| + |y'.amount|))) (x.sub y) (x'.sub y') := by
  have hx' := hx.mono (le_max_left k l)
  have hy' := hy.mono (le_max_right k l)
  clear hx hy
  have ws : ∀ {x y x' y' : ℝ}, Close (max k l) x x' → Close (max k l) y y' →
      |A.sub x y - (x' - y')| ≤ (Real.exp (max k l + A.ε) - 1) * (|x'| + |y'|) := by
    intro x y x' y' h h'
    have hc := A.sub_close x y
    rw [sub_eq_add_neg] at hc
    have := within_sum h h'.neg hc
    rwa [abs_neg, ← sub_eq_add_neg] at this
  have mk : ∀ (c : UCls) (v : Fl A) (w b : ℝ) (s : Sym) (e : ℚ), |v.val - w| ≤ b →
      SameOutcome (Val.Within b) (wrapUnit (mkUnit c v s e)) (wrapUnit (mkUnit c w s e)) := by
    intro c v w b s e h
    unfold mkUnit
    cases c
    all_goals simp only
    all_goals repeat' split
    all_goals first | exact ⟨rfl, rfl, rfl, h⟩ | rfl
  cases x <;> cases x' <;> simp only [Val.Near] at hx' <;> cases y <;> cases y' <;> simp only [Val.Near] at hy'
  all_goals simp only [Val.sub, unitSub, multiSub]
  all_goals try rfl
  all_goals simp only [Val.amount]
  case num.num.num.num => exact ws hx' hy'
  case unit.unit.num.num =>
    obtain ⟨h1, h2, h3, h4⟩ := hx'
    rw [h1, h2]
    exact mk _ _ _ _ _ _ (ws h4 hy')
  case unit.unit.unit.unit =>
    obtain ⟨h1, h2, h3, h4⟩ := hx'
    obtain ⟨g1, g2, g3, g4⟩ := hy'
    rw [h1, h2, h3, g1, g2, g3]
    split
    · split
      · exact mk _ _ _ _ _ _ (ws h4 g4)
      · rfl
    · rfl
  case multi.multi.multi.multi =>
    obtain ⟨h1, h2, h3, h4⟩ := hx'
    obtain ⟨g1, g2, g3, g4⟩ := hy'
    rw [h2, h3, g2, g3]
    split
    · exact ⟨rfl, rfl, rfl, ws h4 g4⟩
    · rfl

/-! ## Conversions -/

/-- Simple conversions without exponent, except temperatures: ten rounding errors. -/
theorem C78_convert_simple {u : UnitV (Fl A)} {u' : UnitV ℝ} (hu : u.Near k u') (hc : u'.cls ≠ .temperature)
    (target : Sym) (ht : '^' ∉ target) :
    SameOutcome (UnitV.Near (k + 10 * A.ε)) (convertUnit stdTables u target) (convertUnit stdTables u' target) := by
  have hk := hu.2.2.2.nonneg
  have he := A.nonneg
  by_cases hself : u'.unit ∈ unitComposites
  · have : parseTarget u'.unit target = .error .valueError := by
      have hs : splitOn '^' target = [target] := splitOn_none ht
      simp [parseTarget, ht, hself, hs]
    unfold convertUnit
    rw [hu.2.1, this]
    rfl
  · refine (convertUnit_near stdTables_near hu hc target).mono fun _ _ h => h.mono ?_
    have : parseTarget u'.unit target = .ok (target, target, 1) := by simp [parseTarget, ht, hself]
    simp only [targetExp, this, convBound, entryRoundings, Rat.cast_one, abs_one, one_mul]
    refine max_le (by linarith) (max_le (by linarith) (by linarith))

/-- Simple conversions to any target, except temperatures, with any tables whose entries are accurate. -/
theorem C78_convert_tables {T : Tables (Fl A)} {T' : Tables ℝ} (h : TablesNear T T') {u : UnitV (Fl A)} {u' : UnitV ℝ}
    (hu : u.Near k u') (hc : u'.cls ≠ .temperature) (target : Sym) :
    SameOutcome (UnitV.Near (convBound A.ε k (targetExp u'.unit target))) (convertUnit T u target)
      (convertUnit T' u' target) := convertUnit_near h hu hc target

/-- Compound conversions. -/
theorem C78_convert_compound {m : MultiV (Fl A)} {m' : MultiV ℝ} (hm : m.Near k m') (target : Sym) :
    SameOutcome (MultiV.Near (k + (sideRoundings m'.top m'.bot + targetRoundings target + 2) * A.ε))
      (convertMulti stdTables m target) (convertMulti stdTables m' target) := convertMulti_near stdTables_near hm target

/-! ## Temperatures -/

/-- `x` is approximated up to the factor `e^k - 1` of `M`. -/
def Approx (k M x y : ℝ) : Prop := 0 ≤ k ∧ |y| ≤ M ∧ |x - y| ≤ (Real.exp k - 1) * M

theorem Approx.mono {k l M N x y : ℝ} (h : Approx k M x y) (hl : k ≤ l) (hN : M ≤ N) : Approx l N x y := by
  have h1 := Real.exp_le_exp.2 hl
  have h2 : 0 ≤ M := (abs_nonneg _).trans h.2.1
  have h3 := Real.one_le_exp h.1
  refine ⟨h.1.trans hl, h.2.1.trans hN, h.2.2.trans ?_⟩
  exact mul_le_mul (by linarith) hN h2 (by linarith)

theorem Approx.round {k l M x y z : ℝ} (h : Approx k M x y) (hz : Close l z x) : Approx (k + l) M z y := by
  have h0 := h.1
  have hl := hz.nonneg
  refine ⟨by linarith, h.2.1, ?_⟩
  have h1 := hz.abs_sub_le
  have h2 : |x| ≤ Real.exp k * M := by
    have := abs_add_le y (x - y)
    rw [add_sub_cancel] at this
    have := h.2.1
    have := h.2.2
    linarith
  have h3 : |z - y| ≤ |z - x| + |x - y| := abs_sub_le z x y
  have h4 := Real.one_le_exp hl
  have h5 : (Real.exp l - 1) * |x| ≤ (Real.exp l - 1) * (Real.exp k * M) := mul_le_mul_of_nonneg_left h2 (by linarith)
  rw [Real.exp_add]
  have := h.2.2
  nlinarith

theorem Approx.add {k M N x y x' y' : ℝ} (h : Approx k M x y) (h' : Approx k N x' y') : Approx k (M + N) (x + x') (y + y') := by
  refine ⟨h.1, (abs_add_le _ _).trans (by linarith [h.2.1, h'.2.1]), ?_⟩
  have e : x + x' - (y + y') = (x - y) + (x' - y') := by ring
  rw [e]
  have := abs_add_le (x - y) (x' - y')
  have := h.2.2
  have := h'.2.2
  linarith

theorem Approx.neg {k M x y : ℝ} (h : Approx k M x y) : Approx k M (-x) (-y) :=
  ⟨h.1, by rw [abs_neg]; exact h.2.1, by rw [← neg_sub', abs_neg]; exact h.2.2⟩

theorem Close.approx {k x y : ℝ} (h : Close k x y) : Approx k |y| x y := ⟨h.nonneg, le_rfl, h.abs_sub_le⟩

theorem Approx.scale {k l M x y p q : ℝ} (h : Approx k M x y) (hq : Close l p q) : Approx (k + l) (M * |q|) (x * p) (y * q) := by
  have h1 : Approx k (M * |q|) (x * q) (y * q) := by
    refine ⟨h.1, by rw [abs_mul]; exact mul_le_mul_of_nonneg_right h.2.1 (abs_nonneg _), ?_⟩
    rw [← sub_mul, abs_mul, ← mul_assoc]
    exact mul_le_mul_of_nonneg_right h.2.2 (abs_nonneg _)
  obtain ⟨t, ht, rfl⟩ := hq
  exact h1.round ⟨t, ht, by ring⟩

/-- An entry of the table of temperatures: six rounding errors, on the scale `a M + b`. -/
def ConvApprox (a b : ℝ) (f : Conv (Fl A)) (g : Conv ℝ) : Prop :=
  ∀ (k M : ℝ) (x : Fl A) (y : ℝ), Approx k M x.val y →
    ∃ v w, f x = .ok v ∧ g y = .ok w ∧ Approx (k + 6 * A.ε) (a * M + b) v.val w

theorem convApprox_toF : ConvApprox (A := A) (5 / 9) (5 / 9 * (45967 / 100))
    (fun x => .ok (((5 / 9 : ℚ) : Fl A) * (x + ((45967 / 100 : ℚ) : Fl A))))
    (fun x => .ok (((5 / 9 : ℚ) : ℝ) * (x + ((45967 / 100 : ℚ) : ℝ)))) := by
  intro k M x y h
  have he := A.nonneg
  have c1 := ((A.lit_close (45967 / 100)).approx.mono (l := k + A.ε) (by linarith [h.1]) le_rfl)
  have c2 := (h.mono (l := k + A.ε) (by linarith) le_rfl).add c1
  have c3 := c2.round (A.add_close x.val (A.lit (45967 / 100)))
  have c4 := c3.scale (A.lit_close (5 / 9))
  have hm := A.mul_close (A.lit (5 / 9)) (A.add x.val (A.lit (45967 / 100)))
  rw [mul_comm (A.lit _)] at hm
  have c5 := c4.round hm
  refine ⟨_, _, rfl, rfl, ?_⟩
  rw [mul_comm (((5 / 9 : ℚ) : ℝ))]
  refine c5.mono (by linarith) ?_
  norm_num [abs_of_pos]
  linarith

theorem convApprox_toC : ConvApprox (A := A) 1 (27315 / 100) (fun x => .ok (x + ((27315 / 100 : ℚ) : Fl A)))
    (fun x => .ok (x + ((27315 / 100 : ℚ) : ℝ))) := by
  intro k M x y h
  have he := A.nonneg
  have c1 := ((A.lit_close (27315 / 100)).approx.mono (l := k + A.ε) (by linarith [h.1]) le_rfl)
  have c2 := (h.mono (l := k + A.ε) (by linarith) le_rfl).add c1
  have c3 := c2.round (A.add_close x.val (A.lit (27315 / 100)))
  refine ⟨_, _, rfl, rfl, c3.mono (by linarith) ?_⟩
  norm_num

theorem convApprox_toR : ConvApprox (A := A) (10 / 18) 0 (divBy (18 / 10)) (divBy (18 / 10)) := by
  intro k M x y h
  have he := A.nonneg
  have c1 := h.scale (A.lit_close (18 / 10)).inv
  rw [← div_eq_mul_inv, ← div_eq_mul_inv] at c1
  have hl : A.lit (18 / 10) ≠ 0 := fun h0 => by
    have := (A.lit_close (18 / 10)).eq_zero_iff.1 h0
    norm_num at this
  have c2 := c1.round (A.div_close x.val (A.lit (18 / 10)) hl)
  refine ⟨_, _, rfl, rfl, c2.mono (by linarith) ?_⟩
  norm_num
  linarith

theorem convApprox_fromF : ConvApprox (A := A) (18 / 10) (18 / 10 * (27315 / 100) + 32)
    (fun x => .ok (((18 / 10 : ℚ) : Fl A) * (x - ((27315 / 100 : ℚ) : Fl A)) + ((32 : ℚ) : Fl A)))
    (fun x => .ok (((18 / 10 : ℚ) : ℝ) * (x - ((27315 / 100 : ℚ) : ℝ)) + ((32 : ℚ) : ℝ))) := by
  intro k M x y h
  have he := A.nonneg
  have c1 := ((A.lit_close (27315 / 100)).approx.mono (l := k + A.ε) (by linarith [h.1]) le_rfl)
  have c2 := (h.mono (l := k + A.ε) (by linarith) le_rfl).add c1.neg
  rw [← sub_eq_add_neg, ← sub_eq_add_neg] at c2
  have c3 := c2.round (A.sub_close x.val (A.lit (27315 / 100)))
  have c4 := c3.scale (A.lit_close (18 / 10))
  have hm := A.mul_close (A.lit (18 / 10)) (A.sub x.val (A.lit (27315 / 100)))
  rw [mul_comm (A.lit _)] at hm
  have c5 := c4.round hm
  have c6 := c5.add ((A.lit_close 32).approx.mono (l := k + A.ε + A.ε + A.ε + A.ε) (by linarith [h.1]) le_rfl)
  have c7 := c6.round (A.add_close _ _)
  refine ⟨_, _, rfl, rfl, ?_⟩
  rw [mul_comm (((18 / 10 : ℚ) : ℝ))]
  refine c7.mono (by linarith) ?_
  norm_num [abs_of_pos]
  linarith

theorem convApprox_fromC : ConvApprox (A := A) 1 (27315 / 100) (fun x => .ok (x - ((27315 / 100 : ℚ) : Fl A)))
    (fun x => .ok (x - ((27315 / 100 : ℚ) : ℝ))) := by
  intro k M x y h
  have he := A.nonneg
  have c1 := ((A.lit_close (27315 / 100)).approx.mono (l := k + A.ε) (by linarith [h.1]) le_rfl)
  have c2 := (h.mono (l := k + A.ε) (by linarith) le_rfl).add c1.neg
  rw [← sub_eq_add_neg, ← sub_eq_add_neg] at c2
  have c3 := c2.round (A.sub_close x.val (A.lit (27315 / 100)))
  refine ⟨_, _, rfl, rfl, c3.mono (by linarith) ?_⟩
  norm_num

theorem convApprox_fromR : ConvApprox (A := A) (18 / 10) 0 (mulBy (18 / 10)) (mulBy (18 / 10)) := by
  intro k M x y h
  have he := A.nonneg
  have c1 := (h.scale (A.lit_close (18 / 10))).round (A.mul_close x.val (A.lit (18 / 10)))
  refine ⟨_, _, rfl, rfl, c1.mono (by linarith) ?_⟩
  norm_num
  linarith

/-- The exponent one costs one rounding error. -/
theorem applyConv_approx {a b : ℝ} {f : Conv (Fl A)} {g : Conv ℝ} (h : ConvApprox a b f g) {k M : ℝ} {x : Fl A} {y : ℝ}
    (hx : Approx k M x.val y) :
    ∃ v w, applyConv (.ok f) x 1 = .ok v ∧ applyConv (.ok g) y 1 = .ok w ∧ Approx (k + 7 * A.ε) (a * M + b) v.val w := by
  obtain ⟨v, w, e1, e2, hvw⟩ := h k M x y hx
  have h1 : ¬ ((1 : ℚ) < 0) := by norm_num
  have h2 : ¬ ((1 : ℚ).den ≠ 1) := by simp
  refine ⟨⟨A.pow v.val 1⟩, w, ?_, ?_, ?_⟩
  · simp only [applyConv, e1, PyPow.pow, h1, h2, and_false, if_false]
  · simp only [applyConv, e2, pow_real_one]
  · have hc : Close A.ε (A.pow v.val 1) v.val := by
      have := A.pow_close v.val 1 (by
        rcases lt_trichotomy v.val 0 with h | h | h
        · exact Or.inr (Or.inr ⟨h, rfl⟩)
        · exact Or.inr (Or.inl ⟨h, by norm_num⟩)
        · exact Or.inl h)
      simpa using this
    exact (hvw.round hc).mono (by linarith) le_rfl

/-- Temperatures between the four scales: fourteen rounding errors, relative to the temperature plus the offsets. -/
theorem C78_convert_temperature {u : UnitV (Fl A)} {u' : UnitV ℝ} (hu : u.Near k u') (hc : u'.cls = .temperature)
    (hs : u'.unit ∈ [c!"K", c!"C", c!"R", c!"F"]) (t : Sym) (ht : t ∈ [c!"K", c!"C", c!"R", c!"F"]) :
    ∃ w w', convertUnit stdTables u t = .ok w ∧ convertUnit stdTables u' t = .ok w' ∧ w.cls = w'.cls ∧ w.unit = w'.unit ∧
      w.exp = w'.exp ∧ |w.value.val - w'.value| ≤ (Real.exp (k + 14 * A.ε) - 1) * (2 * |u'.value| + 1016) := by
  have he := A.nonneg
  obtain ⟨c, v, s, x⟩ := u
  obtain ⟨c', v', s', x'⟩ := u'
  obtain ⟨rfl, rfl, rfl, h1⟩ := hu
  simp only at h1 hc hs
  subst hc
  have h0 := h1.approx
  have hv := abs_nonneg v'
  have fin : ∀ {M a b : ℝ}, Approx (k + 14 * A.ε) M a b → M ≤ 2 * |v'| + 1016 →
      |a - b| ≤ (Real.exp (k + 14 * A.ε) - 1) * (2 * |v'| + 1016) := fun h hM => (h.mono le_rfl hM).2.2
  have self : ∀ t : Sym, t = s → ∃ w w', convertUnit stdTables ⟨.temperature, v, s, x⟩ t = .ok w ∧
      convertUnit stdTables ⟨.temperature, v', s, x⟩ t = .ok w' ∧ w.cls = w'.cls ∧ w.unit = w'.unit ∧
      w.exp = w'.exp ∧ |w.value.val - w'.value| ≤ (Real.exp (k + 14 * A.ε) - 1) * (2 * |v'| + 1016) := by
    rintro t rfl
    have hp : parseTarget t t = .ok (t, t, 1) := by
      simp only [List.mem_cons, List.not_mem_nil, or_false] at hs
      rcases hs with rfl | rfl | rfl | rfl <;> decide +kernel
    refine ⟨⟨.temperature, v, t, x⟩, ⟨.temperature, v', t, x⟩, by simp only [convertUnit, hp, convertParsed, if_true], by simp only [convertUnit, hp, convertParsed, if_true],
      rfl, rfl, rfl, fin (h0.mono (by linarith) le_rfl) (by linarith)⟩
  simp only [List.mem_cons, List.not_mem_nil, or_false] at hs ht
  have toK : ∀ s a b (f : Conv (Fl A)) (g : Conv ℝ), s ≠ c!"K" → parseTarget s c!"K" = .ok (c!"K", c!"K", 1) →
      lookupTo stdTables .temperature s = .ok f → lookupTo stdTables .temperature s = .ok g → ConvApprox a b f g →
      a * |v'| + b ≤ 2 * |v'| + 1016 →
      ∃ w w', convertUnit stdTables ⟨.temperature, v, s, x⟩ c!"K" = .ok w ∧
      convertUnit stdTables ⟨.temperature, v', s, x⟩ c!"K" = .ok w' ∧ w.cls = w'.cls ∧ w.unit = w'.unit ∧
      w.exp = w'.exp ∧ |w.value.val - w'.value| ≤ (Real.exp (k + 14 * A.ε) - 1) * (2 * |v'| + 1016) := by
    intro s a b f g hne hp hf hg hfg hM
    obtain ⟨p, q, e1, e2, hpq⟩ := applyConv_approx hfg h0
    refine ⟨⟨.temperature, p, c!"K", 1⟩, ⟨.temperature, q, c!"K", 1⟩, ?_, ?_, rfl, rfl, rfl,
      fin (hpq.mono (by linarith) le_rfl) hM⟩
    · simp only [convertUnit, hp, convertParsed, hne, if_false, standardOf, if_true, hf, e1, mkUnit]
    · simp only [convertUnit, hp, convertParsed, hne, if_false, standardOf, if_true, hg, e2, mkUnit]
  have fromK : ∀ t a b (f : Conv (Fl A)) (g : Conv ℝ), t ≠ c!"K" → parseTarget c!"K" t = .ok (t, t, 1) →
      lookupFrom stdTables .temperature t = .ok f → lookupFrom stdTables .temperature t = .ok g → ConvApprox a b f g →
      a * |v'| + b ≤ 2 * |v'| + 1016 →
      ∃ w w', convertUnit stdTables ⟨.temperature, v, c!"K", x⟩ t = .ok w ∧
      convertUnit stdTables ⟨.temperature, v', c!"K", x⟩ t = .ok w' ∧ w.cls = w'.cls ∧ w.unit = w'.unit ∧
      w.exp = w'.exp ∧ |w.value.val - w'.value| ≤ (Real.exp (k + 14 * A.ε) - 1) * (2 * |v'| + 1016) := by
    intro t a b f g hne hp hf hg hfg hM
    obtain ⟨p, q, e1, e2, hpq⟩ := applyConv_approx hfg h0
    refine ⟨⟨.temperature, p, t, 1⟩, ⟨.temperature, q, t, 1⟩, ?_, ?_, rfl, rfl, rfl,
      fin (hpq.mono (by linarith) le_rfl) hM⟩
    · simp only [convertUnit, hp, convertParsed, hne, Ne.symm hne, if_false, standardOf, if_true, hf, e1, mkUnit]
    · simp only [convertUnit, hp, convertParsed, hne, Ne.symm hne, if_false, standardOf, if_true, hg, e2, mkUnit]
  have both : ∀ s t a b a' b' (f f' : Conv (Fl A)) (g g' : Conv ℝ), s ≠ c!"K" → t ≠ c!"K" → s ≠ t →
      parseTarget s t = .ok (t, t, 1) →
      lookupTo stdTables .temperature s = .ok f → lookupTo stdTables .temperature s = .ok g → ConvApprox a b f g →
      lookupFrom stdTables .temperature t = .ok f' → lookupFrom stdTables .temperature t = .ok g' → ConvApprox a' b' f' g' →
      a' * (a * |v'| + b) + b' ≤ 2 * |v'| + 1016 →
      ∃ w w', convertUnit stdTables ⟨.temperature, v, s, x⟩ t = .ok w ∧
      convertUnit stdTables ⟨.temperature, v', s, x⟩ t = .ok w' ∧ w.cls = w'.cls ∧ w.unit = w'.unit ∧
      w.exp = w'.exp ∧ |w.value.val - w'.value| ≤ (Real.exp (k + 14 * A.ε) - 1) * (2 * |v'| + 1016) := by
    intro s t a b a' b' f f' g g' hs ht hst hp hf hg hfg hf' hg' hfg' hM
    obtain ⟨p, q, e1, e2, hpq⟩ := applyConv_approx hfg h0
    obtain ⟨p', q', e1', e2', hpq'⟩ := applyConv_approx hfg' hpq
    refine ⟨⟨.temperature, p', t, 1⟩, ⟨.temperature, q', t, 1⟩, ?_, ?_, rfl, rfl, rfl,
      fin (hpq'.mono (by linarith) le_rfl) hM⟩
    · simp only [convertUnit, hp, convertParsed, hs, ht, hst, if_false, standardOf, hf, e1, hf', e1', mkUnit]
    · simp only [convertUnit, hp, convertParsed, hs, ht, hst, if_false, standardOf, hg, e2, hg', e2', mkUnit]
  rcases hs with rfl | rfl | rfl | rfl <;> rcases ht with rfl | rfl | rfl | rfl
  · exact self _ rfl
  · exact fromK _ _ _ _ _ (by decide) (by decide +kernel) rfl rfl convApprox_fromC (by linarith)
  · exact fromK _ _ _ _ _ (by decide) (by decide +kernel) rfl rfl convApprox_fromR (by linarith)
  · exact fromK _ _ _ _ _ (by decide) (by decide +kernel) rfl rfl convApprox_fromF (by linarith)
  · exact toK _ _ _ _ _ (by decide) (by decide +kernel) rfl rfl convApprox_toC (by linarith)
  · exact self _ rfl
  · exact both _ _ _ _ _ _ _ _ _ _ (by decide) (by decide) (by decide) (by decide +kernel) rfl rfl convApprox_toC rfl rfl
      convApprox_fromR (by linarith)
  · exact both _ _ _ _ _ _ _ _ _ _ (by decide) (by decide) (by decide) (by decide +kernel) rfl rfl convApprox_toC rfl rfl
      convApprox_fromF (by linarith)
  · exact toK _ _ _ _ _ (by decide) (by decide +kernel) rfl rfl convApprox_toR (by linarith)
  · exact both _ _ _ _ _ _ _ _ _ _ (by decide) (by decide) (by decide) (by decide +kernel) rfl rfl convApprox_toR rfl rfl
      convApprox_fromC (by linarith)
  · exact self _ rfl
  · exact both _ _ _ _ _ _ _ _ _ _ (by decide) (by decide) (by decide) (by decide +kernel) rfl rfl convApprox_toR rfl rfl
      convApprox_fromF (by linarith)
  · exact toK _ _ _ _ _ (by decide) (by decide +kernel) rfl rfl convApprox_toF (by linarith)
  · exact both _ _ _ _ _ _ _ _ _ _ (by decide) (by decide) (by decide) (by decide +kernel) rfl rfl convApprox_toF rfl rfl
      convApprox_fromC (by linarith)
  · exact both _ _ _ _ _ _ _ _ _ _ (by decide) (by decide) (by decide) (by decide +kernel) rfl rfl convApprox_toF rfl rfl
      convApprox_fromR (by linarith)
  · exact self _ rfl

end Verif
