import Verif.Props.FloatExpr
import Verif.Lemmas.FloatMath
import Verif.Units.Code

/-!
# C82: rounding errors of the formulas of the library

Formulas subtract temperatures, call `math.log` and convert units, so their rounding errors depend on how much is lost to
cancellation.  Each rounding error is multiplied by the condition number of the operations it passes through; the bound
below computes the product for every formula, and holds as long as no intermediate result is lost entirely.
-/

namespace Verif

/-! ## The bound -/

/-- The number computed. -/
def runAmount : PyM (Val ℝ) → ℝ
  | .ok x => x.amount
  | .error _ => 0

/-- Rounding errors of `x + y` when `x` carries `m` and `y` carries `n`: with opposite signs they grow by the condition
number `(|x| + |y|) / |x + y|` (and a factor of at most four). -/
noncomputable def sumRoundings (m n x y : ℝ) : ℝ :=
  if 0 ≤ x * y then max m n + 1 else 4 * max m n * ((|x| + |y|) / |x + y|) + 1

/-- Rounding errors of a function of `a`, which carries `n`. -/
noncomputable def Fn.roundings (n a : ℝ) : Fn → ℝ
  | .exp => 2 * n * |a| + 1
  | .log => 2 * n / |Real.log a| + 1
  | .sin => 4 * n * |a| / |Real.sin a| + 1
  | .erf => n + 1
  | .erfc => 5 * n * |a| / (1 - Verif.erf a) + 1

/-- Rounding errors of a temperature conversion: fourteen more, relative to the size of the temperature and the offsets. -/
noncomputable def temperatureRoundings (n : ℝ) (u : UnitV ℝ) (t : Sym) : ℝ :=
  if u.unit = t then n else 4 * (n + 14) * (2 * |u.value| + 1016) / |runAmount (callConvert (.unit u) t)|

/-- Rounding errors of a conversion. -/
noncomputable def conversionRoundings (n : ℝ) (t : Sym) : PyM (Val ℝ) → ℝ
  | .ok (.unit u) => if u.cls = .temperature then temperatureRoundings n u t else convBound 1 n (targetExp u.unit t)
  | .ok (.multi m) => n + (sideRoundings m.top m.bot + targetRoundings t + 2)
  | _ => n

/-- Rounding errors of the result of an expression whose arguments carry `n i` of them. -/
noncomputable def Code.bound (env : ℕ → Val ℝ) (n : ℕ → ℝ) : Code → ℝ
  | .var i => n i
  | .lit _ => 1
  | .pi => 1
  | .const _ _ _ => 1
  | .mul a b => a.bound env n + b.bound env n + (2 + runRoundings (a.run env) + runRoundings (b.run env))
  | .div a b => a.bound env n + b.bound env n + (2 + runRoundings (a.run env) + runRoundings (b.run env))
  | .add a b => sumRoundings (a.bound env n) (b.bound env n) (runAmount (a.run env)) (runAmount (b.run env))
  | .sub a b => sumRoundings (a.bound env n) (b.bound env n) (runAmount (a.run env)) (-runAmount (b.run env))
  | .neg a => a.bound env n
  | .pow a q => |(q : ℝ)| * a.bound env n + 1
  | .fn f a => f.roundings (a.bound env n) (runAmount (a.run env))
  | .conv a t => conversionRoundings (a.bound env n) t (a.run env)

/-! ## When it applies -/

/-- The sum keeps some accuracy: no cancellation, exact operands, or not all digits are lost. -/
def SumStable (ε m n x y : ℝ) : Prop :=
  0 ≤ x * y ∨ max m n = 0 ∨ (x + y ≠ 0 ∧ 4 * max m n * ((|x| + |y|) / |x + y|) * ε ≤ 1)

/-- The value of the function keeps some accuracy. -/
def Fn.Stable (ε n a : ℝ) : Fn → Prop
  | .exp => n * ε ≤ 1
  | .log => a ≤ 0 ∨ n = 0 ∨ (a ≠ 1 ∧ 2 * n / |Real.log a| * ε ≤ 1)
  | .sin => n = 0 ∨ (n * ε ≤ 1 ∧ Real.sin a ≠ 0 ∧ 4 * n * |a| / |Real.sin a| * ε ≤ 1)
  | .erf => True
  | .erfc => n * ε ≤ 1 ∧ 5 * n * |a| / (1 - Verif.erf a) * ε ≤ 1

/-- The temperature keeps some accuracy; the four scales only. -/
def TemperatureStable (ε n : ℝ) (u : UnitV ℝ) (t : Sym) : Prop :=
  u.unit ∈ [c!"K", c!"C", c!"R", c!"F"] ∧ t ∈ [c!"K", c!"C", c!"R", c!"F"] ∧ (u.unit = t ∨ ((n + 14) * ε ≤ 1 ∧
    runAmount (callConvert (.unit u) t) ≠ 0 ∧ temperatureRoundings n u t * ε ≤ 1))

/-- Every intermediate result of the exact run keeps some accuracy. -/
def Code.Stable (ε : ℝ) (env : ℕ → Val ℝ) (n : ℕ → ℝ) : Code → Prop
  | .var _ => True
  | .lit _ => True
  | .pi => True
  | .const _ _ _ => True
  | .mul a b => a.Stable ε env n ∧ b.Stable ε env n
  | .div a b => a.Stable ε env n ∧ b.Stable ε env n
  | .add a b => a.Stable ε env n ∧ b.Stable ε env n ∧
      SumStable ε (a.bound env n) (b.bound env n) (runAmount (a.run env)) (runAmount (b.run env))
  | .sub a b => a.Stable ε env n ∧ b.Stable ε env n ∧
      SumStable ε (a.bound env n) (b.bound env n) (runAmount (a.run env)) (-runAmount (b.run env))
  | .neg a => a.Stable ε env n
  | .pow a _ => a.Stable ε env n
  | .fn f a => a.Stable ε env n ∧ f.Stable ε (a.bound env n) (runAmount (a.run env))
  | .conv a t => a.Stable ε env n ∧
      ∀ u, a.run env = .ok (.unit u) → u.cls = .temperature → TemperatureStable ε (a.bound env n) u t

/-! ## Single operations -/

section
variable {A : FloatArith}

theorem Close.eq_of_zero {a b : ℝ} (h : Close 0 a b) : a = b := by
  obtain ⟨t, ht, rfl⟩ := h
  have : t = 0 := abs_eq_zero.1 (le_antisymm ht (abs_nonneg _))
  simp [this]

theorem Close.sum {ε m n x y x' y' : ℝ} (he : 0 ≤ ε) (hx : Close (m * ε) x x') (hy : Close (n * ε) y y')
    (hs : SumStable ε m n x' y') : Close ((sumRoundings m n x' y' - 1) * ε) (x + y) (x' + y') := by
  have hK : max (m * ε) (n * ε) = max m n * ε := (max_mul_of_nonneg _ _ he).symm
  have hx := hx.mono (le_max_left _ (n * ε))
  have hy := hy.mono (le_max_right (m * ε) _)
  rw [hK] at hx hy
  have hK0 := hx.nonneg
  by_cases hc : 0 ≤ x' * y'
  · rw [sumRoundings, if_pos hc, add_sub_cancel_right]
    exact hx.add hy hc
  rw [sumRoundings, if_neg hc, add_sub_cancel_right]
  rcases hs.resolve_left hc with h0 | ⟨hr, hs⟩
  · rw [h0] at hx hy ⊢
    rw [zero_mul] at hx hy
    rw [hx.eq_of_zero, hy.eq_of_zero]
    exact Close.refl (by simp) _
  · have hr' := abs_pos.2 hr
    have hS : |x' + y'| ≤ |x'| + |y'| := abs_add_le x' y'
    have e : 4 * max m n * ((|x'| + |y'|) / |x' + y'|) * ε = 4 * (max m n * ε) * (|x'| + |y'|) / |x' + y'| := by ring
    rw [e] at hs ⊢
    refine close_of_scaled hK0 ?_ (by positivity) ?_ hs hr
    · rw [div_le_one hr'] at hs
      have : max m n * ε * |x' + y'| ≤ max m n * ε * (|x'| + |y'|) := mul_le_mul_of_nonneg_left hS hK0
      by_contra hcon
      rw [not_le] at hcon
      nlinarith
    · have e : x + y - (x' + y') = (x - x') + (y - y') := by ring
      rw [e]
      have := abs_add_le (x - x') (y - y')
      have := hx.abs_sub_le
      have := hy.abs_sub_le
      linarith

theorem near_sum {m n : ℝ} {x y : Fl A} {x' y' : ℝ} (hx : Close (m * A.ε) x.val x') (hy : Close (n * A.ε) y.val y')
    (hs : SumStable A.ε m n x' y') : Close (sumRoundings m n x' y' * A.ε) (x + y).val (x' + y') :=
  ((A.add_close x.val y.val).trans (hx.sum A.nonneg hy hs)).mono (by linarith)

theorem near_dif {m n : ℝ} {x y : Fl A} {x' y' : ℝ} (hx : Close (m * A.ε) x.val x') (hy : Close (n * A.ε) y.val y')
    (hs : SumStable A.ε m n x' (-y')) : Close (sumRoundings m n x' (-y') * A.ε) (x - y).val (x' - y') := by
  have := A.sub_close x.val y.val
  rw [sub_eq_add_neg] at this
  rw [sub_eq_add_neg]
  exact (this.trans (hx.sum A.nonneg hy.neg hs)).mono (by linarith)

/-- Sums, with or without cancellation. -/
theorem C82_sum {m n : ℝ} {x y : Val (Fl A)} {x' y' : Val ℝ} (hx : x.Near (m * A.ε) x') (hy : y.Near (n * A.ε) y')
    (hs : SumStable A.ε m n x'.amount y'.amount) :
    SameOutcome (Val.Near (sumRoundings m n x'.amount y'.amount * A.ε)) (x.add y) (x'.add y') := by
  cases x <;> cases x' <;> simp only [Val.Near] at hx <;> cases y <;> cases y' <;> simp only [Val.Near] at hy
  all_goals simp only [Val.add, unitAdd, multiAdd]
  all_goals try rfl
  all_goals simp only [Val.amount] at hs
  case num.num.num.num => exact near_sum hx hy hs
  case unit.unit.num.num =>
    obtain ⟨h1, h2, h3, h4⟩ := hx
    rw [h1, h2]
    exact near_wrapUnit (near_mkUnit _ (near_sum h4 hy hs) _ _)
  case unit.unit.unit.unit =>
    obtain ⟨h1, h2, h3, h4⟩ := hx
    obtain ⟨g1, g2, g3, g4⟩ := hy
    rw [h1, h2, h3, g1, g2, g3]
    split
    · split
      · exact near_wrapUnit (near_mkUnit _ (near_sum h4 g4 hs) _ _)
      · rfl
    · rfl
  case multi.multi.multi.multi =>
    obtain ⟨h1, h2, h3, h4⟩ := hx
    obtain ⟨g1, g2, g3, g4⟩ := hy
    rw [h1, h2, h3, g1, g2, g3]
    split
    · split
      · exact ⟨rfl, rfl, rfl, near_sum h4 g4 hs⟩
      · rfl
    · rfl

/-- Differences. -/
theorem C82_difference {m n : ℝ} {x y : Val (Fl A)} {x' y' : Val ℝ} (hx : x.Near (m * A.ε) x')
    (hy : y.Near (n * A.ε) y') (hs : SumStable A.ε m n x'.amount (-y'.amount)) :
    SameOutcome (Val.Near (sumRoundings m n x'.amount (-y'.amount) * A.ε)) (x.sub y) (x'.sub y') := by
  cases x <;> cases x' <;> simp only [Val.Near] at hx <;> cases y <;> cases y' <;> simp only [Val.Near] at hy
  all_goals simp only [Val.sub, unitSub, multiSub]
  all_goals try rfl
  all_goals simp only [Val.amount] at hs
  case num.num.num.num => exact near_dif hx hy hs
  case unit.unit.num.num =>
    obtain ⟨h1, h2, h3, h4⟩ := hx
    rw [h1, h2]
    exact near_wrapUnit (near_mkUnit _ (near_dif h4 hy hs) _ _)
  case unit.unit.unit.unit =>
    obtain ⟨h1, h2, h3, h4⟩ := hx
    obtain ⟨g1, g2, g3, g4⟩ := hy
    rw [h1, h2, h3, g1, g2, g3]
    split
    · split
      · exact near_wrapUnit (near_mkUnit _ (near_dif h4 g4 hs) _ _)
      · rfl
    · rfl
  case multi.multi.multi.multi =>
    obtain ⟨h1, h2, h3, h4⟩ := hx
    obtain ⟨g1, g2, g3, g4⟩ := hy
    rw [h2, h3, g2, g3]
    split
    · exact ⟨rfl, rfl, rfl, near_dif h4 g4 hs⟩
    · rfl

/-- Conversions, with the four temperature scales. -/
theorem C82_conversion {n : ℝ} {x : Val (Fl A)} {y : Val ℝ} (h : x.Near (n * A.ε) y) (t : Sym)
    (hc : ∀ u, y = .unit u → u.cls = .temperature → TemperatureStable A.ε n u t) :
    SameOutcome (Val.Near (conversionRoundings n t (.ok y) * A.ε)) (convertVal x t) (convertVal y t) := by
  have he := A.nonneg
  by_cases hT : ∃ u, y = .unit u ∧ u.cls = .temperature
  · obtain ⟨u', rfl, hcls⟩ := hT
    cases x <;> simp only [Val.Near] at h
    rename_i u
    have hs := hc u' rfl hcls
    simp only [conversionRoundings, hcls, if_true]
    obtain ⟨h1, h2, hs⟩ := hs
    by_cases hself : u'.unit = t
    · subst hself
      have hp : parseTarget u'.unit u'.unit = .ok (u'.unit, u'.unit, 1) := by
        simp only [List.mem_cons, List.not_mem_nil, or_false] at h1
        rcases h1 with h1 | h1 | h1 | h1 <;> rw [h1] <;> decide +kernel
      have e1 : convertUnit stdTables u u'.unit = .ok u := by
        simp only [convertUnit, h.2.1, hp, convertParsed, if_true]
      have e2 : convertUnit stdTables u' u'.unit = .ok u' := by
        simp only [convertUnit, hp, convertParsed, if_true]
      simp only [convertVal, e1, e2, temperatureRoundings, if_true]
      exact h
    · obtain ⟨h3, h4, h5⟩ := hs.resolve_left hself
      obtain ⟨w, w', e1, e2, g1, g2, g3, g4⟩ := C78_convert_temperature h hcls h1 t h2
      have h6 : runAmount (callConvert (.unit u') t) = w'.value := by
        simp only [callConvert, e2]; rfl
      simp only [convertVal, e1, e2]
      refine ⟨g1, g2, g3, ?_⟩
      simp only [temperatureRoundings, if_neg hself, h6] at h4 h5 ⊢
      have e3 : n * A.ε + 14 * A.ε = (n + 14) * A.ε := by ring
      have e4 : 4 * (n + 14) * (2 * |u'.value| + 1016) / |w'.value| * A.ε
          = 4 * ((n + 14) * A.ε) * (2 * |u'.value| + 1016) / |w'.value| := by ring
      rw [e4] at h5 ⊢
      rw [e3] at g4
      exact close_of_scaled (by rw [← e3]; linarith [h.2.2.2.nonneg]) h3 (by positivity) g4 h5 h4
  · have hT' : ∀ u, y = .unit u → u.cls ≠ .temperature := fun u e hu => hT ⟨u, e, hu⟩
    have := convertVal_near h t hT'
    convert this using 3
    cases y <;> simp only [conversionRoundings, convRoundings]
    rw [if_neg (hT' _ rfl)]

end

/-- The functions of the `math` module. -/
theorem C82_function {M : FloatMath} {n : ℝ} {x : Val (Fl M.toFloatArith)} {y : Val ℝ} (h : x.Near (n * M.ε) y) (f : Fn)
    (hs : f.Stable M.ε n y.amount) :
    SameOutcome (Val.Near (f.roundings n y.amount * M.ε)) (f.call x) (f.call y) := by
  have he := M.nonneg
  cases x <;> cases y <;> simp only [Val.Near] at h
  all_goals try rfl
  case num.num x y =>
  simp only [Val.amount] at hs ⊢
  cases f <;> simp only [Fn.Stable] at hs <;> simp only [Fn.call, Fn.roundings]
  case exp =>
    refine ((M.exp_close x.val).trans (h.exp hs)).mono ?_
    linarith
  case log =>
    by_cases hy : 0 < y
    · have hx : 0 < x.val := by
        obtain ⟨t, -, e⟩ := h
        rw [e]; exact mul_pos hy (Real.exp_pos t)
      rw [if_pos (show (0 : Fl M.toFloatArith) < x from hx), if_pos hy]
      rcases hs.resolve_left (not_le.2 hy) with h0 | hs
      · subst h0
        rw [zero_mul] at h
        have h1 := M.log_close x.val hx
        have h2 : Real.log x.val = Real.log y := by rw [h.eq_of_zero]
        rw [h2] at h1
        refine Close.mono h1 ?_
        simp
      have hl : Real.log y ≠ 0 := fun h0 => by
        rcases Real.log_eq_zero.1 h0 with h | h | h
        · linarith
        · exact hs.1 h
        · linarith
      have e : 2 * (n * M.ε) / |Real.log y| = 2 * n / |Real.log y| * M.ε := by ring
      have := h.log hy hl (by rw [e]; exact hs.2)
      refine ((M.log_close x.val hx).trans this).mono ?_
      linarith
    · have hx : ¬ 0 < x.val := by
        obtain ⟨t, -, e⟩ := h
        rw [e]
        have := mul_nonpos_of_nonpos_of_nonneg (not_lt.1 hy) (Real.exp_pos t).le
        linarith
      rw [if_neg (show ¬ (0 : Fl M.toFloatArith) < x from hx), if_neg hy]
      rfl
  case sin =>
    rcases hs with h0 | hs
    · subst h0
      rw [zero_mul] at h
      have h1 := M.sin_close x.val
      have h2 : Real.sin x.val = Real.sin y := by rw [h.eq_of_zero]
      rw [h2] at h1
      refine Close.mono h1 ?_
      simp
    have e : 4 * (n * M.ε) * |y| / |Real.sin y| = 4 * n * |y| / |Real.sin y| * M.ε := by ring
    have := h.sin hs.1 hs.2.1 (by rw [e]; exact hs.2.2)
    refine ((M.sin_close x.val).trans this).mono ?_
    linarith
  case erf =>
    refine ((M.erf_close x.val).trans h.erf).mono ?_
    linarith
  case erfc =>
    have e : 5 * (n * M.ε) * |y| / (1 - Verif.erf y) = 5 * n * |y| / (1 - Verif.erf y) * M.ε := by ring
    have := h.erfc hs.1 (by rw [e]; exact hs.2)
    refine ((M.erfc_close x.val).trans this).mono ?_
    linarith

/-! ## Whole formulas -/

/-- A formula run over floating point numbers ends like the exact formula: in the same exception, or with the same class
and units and a value within the computed number of rounding errors. -/
theorem C82_formula {M : FloatMath} (env : ℕ → Val (Fl M.toFloatArith)) (env' : ℕ → Val ℝ) (n : ℕ → ℝ)
    (henv : ∀ i, (env i).Near (n i * M.ε) (env' i)) (c : Code) (hc : c.Stable M.ε env' n) :
    SameOutcome (Val.Near (c.bound env' n * M.ε)) (c.run env) (c.run env') := by
  have he := M.nonneg
  induction c with
  | var i => exact henv i
  | lit q =>
    have := M.lit_close q
    simpa [Code.run, Code.bound, pnum, SameOutcome, Val.Near] using this
  | pi =>
    simp only [Code.bound, one_mul]
    exact M.pi_close
  | const cl q u =>
    have := near_mkMulti (A := M.toFloatArith) cl (M.lit_close q) u
    simp only [Code.run, Code.bound, constant, one_mul]
    rcases this.elim with ⟨e, e1, e2⟩ | ⟨x, x', e1, e2, hx⟩
    · have e1' : mkMulti cl (q : Fl M.toFloatArith) u = .error e := e1
      rw [e1', e2]; rfl
    · have e1' : mkMulti cl (q : Fl M.toFloatArith) u = .ok x := e1
      rw [e1', e2]; exact hx
  | mul a b iha ihb =>
    simp only [Code.run, Code.bound]
    rcases (iha hc.1).elim with ⟨e, e1, e2⟩ | ⟨x, x', e1, e2, hx⟩
    · rw [e1, e2]; rfl
    · rcases (ihb hc.2).elim with ⟨e, e3, e4⟩ | ⟨y, y', e3, e4, hy⟩
      · rw [e1, e2, e3, e4]; rfl
      · rw [e1, e2, e3, e4]
        simp only [ok_mul, runRoundings]
        exact (C78_product hx hy).mono fun _ _ h => h.mono (by linarith)
  | div a b iha ihb =>
    simp only [Code.run, Code.bound]
    rcases (iha hc.1).elim with ⟨e, e1, e2⟩ | ⟨x, x', e1, e2, hx⟩
    · rw [e1, e2]; rfl
    · rcases (ihb hc.2).elim with ⟨e, e3, e4⟩ | ⟨y, y', e3, e4, hy⟩
      · rw [e1, e2, e3, e4]; rfl
      · rw [e1, e2, e3, e4]
        simp only [ok_div, runRoundings]
        exact (C78_quotient hx hy).mono fun _ _ h => h.mono (by linarith)
  | add a b iha ihb =>
    have hs := hc.2.2
    simp only [Code.run, Code.bound]
    rcases (iha hc.1).elim with ⟨e, e1, e2⟩ | ⟨x, x', e1, e2, hx⟩
    · rw [e1, e2]; rfl
    · rcases (ihb hc.2.1).elim with ⟨e, e3, e4⟩ | ⟨y, y', e3, e4, hy⟩
      · rw [e1, e2, e3, e4]; rfl
      · rw [e2, e4] at hs
        rw [e1, e2, e3, e4]
        simp only [ok_add, runAmount]
        exact C82_sum hx hy hs
  | sub a b iha ihb =>
    have hs := hc.2.2
    simp only [Code.run, Code.bound]
    rcases (iha hc.1).elim with ⟨e, e1, e2⟩ | ⟨x, x', e1, e2, hx⟩
    · rw [e1, e2]; rfl
    · rcases (ihb hc.2.1).elim with ⟨e, e3, e4⟩ | ⟨y, y', e3, e4, hy⟩
      · rw [e1, e2, e3, e4]; rfl
      · rw [e2, e4] at hs
        rw [e1, e2, e3, e4]
        simp only [ok_sub, runAmount]
        exact C82_difference hx hy hs
  | neg a iha =>
    simp only [Code.run, Code.bound]
    rcases (iha hc).elim with ⟨e, e1, e2⟩ | ⟨x, x', e1, e2, hx⟩
    · rw [e1, e2]; rfl
    · rw [e1, e2]
      simp only [ok_neg]
      exact C78_negation hx
  | pow a q iha =>
    simp only [Code.run, Code.bound]
    rcases (iha hc).elim with ⟨e, e1, e2⟩ | ⟨x, x', e1, e2, hx⟩
    · rw [e1, e2]; rfl
    · rw [e1, e2]
      simp only [ok_pow]
      exact (C78_power hx q).mono fun _ _ h => h.mono (by linarith)
  | fn f a iha =>
    have hs := hc.2
    simp only [Code.run, Code.bound]
    rcases (iha hc.1).elim with ⟨e, e1, e2⟩ | ⟨x, x', e1, e2, hx⟩
    · rw [e1, e2]; rfl
    · rw [e2] at hs
      rw [e1, e2]
      exact C82_function hx f hs
  | conv a t iha =>
    simp only [Code.run, Code.bound]
    rcases (iha hc.1).elim with ⟨e, e1, e2⟩ | ⟨x, x', e1, e2, hx⟩
    · rw [e1, e2]; rfl
    · have hu : ∀ u, x' = .unit u → u.cls = .temperature → TemperatureStable M.ε (a.bound env' n) u t :=
        fun u h => hc.2 u (by rw [e2, h])
      rw [e1, e2]
      exact C82_conversion hx t hu

end Verif
