import Verif.Props.Float

/-!
# C78: rounding errors of whole calculations

A calculation is a Python expression over quantities with the operators of the library and `convert_to`.  It is run twice:
over floating point numbers and over exact numbers.
-/

namespace Verif

/-- Python expressions over quantities. -/
inductive Calc
  | var (i : ℕ)
  | lit (q : ℚ)
  | mul (a b : Calc)
  | div (a b : Calc)
  | add (a b : Calc)
  | sub (a b : Calc)
  | neg (a : Calc)
  | pow (a : Calc) (q : ℚ)
  | conv (a : Calc) (target : Sym)

/-- `x.convert_to(target)`, methods of `Unit` and `MultiUnit`; numbers have no such method. -/
def convertVal {K : Type} [Zero K] [One K] [Add K] [Sub K] [Mul K] [Div K] [Neg K] [NatCast K] [RatCast K] [LinearOrder K]
    [PyPow K] (x : Val K) (target : Sym) : PyM (Val K) :=
  match x with
  | .unit u => wrapUnit (convertUnit stdTables u target)
  | .multi m => match convertMulti stdTables m target with
    | .error e => .error e
    | .ok w => .ok (.multi w)
  | _ => .error .attributeError

/-- The expression run on the objects of `env`. -/
def Calc.run {K : Type} [Zero K] [One K] [Add K] [Sub K] [Mul K] [Div K] [Neg K] [NatCast K] [RatCast K] [LinearOrder K]
    [PyPow K] (env : ℕ → Val K) : Calc → PyM (Val K)
  | .var i => .ok (env i)
  | .lit q => pnum (q : K)
  | .mul a b => a.run env * b.run env
  | .div a b => a.run env / b.run env
  | .add a b => a.run env + b.run env
  | .sub a b => a.run env - b.run env
  | .neg a => -a.run env
  | .pow a q => ppow (a.run env) q
  | .conv a t => lift1 (fun x => convertVal x t) (a.run env)

/-- Rounding errors of the prefix factors of the object computed. -/
def runRoundings : PyM (Val ℝ) → ℝ
  | .ok x => x.roundings
  | .error _ => 0

/-- Rounding errors of a conversion of an object with `n` rounding errors. -/
noncomputable def convRoundings (n : ℝ) (t : Sym) : PyM (Val ℝ) → ℝ
  | .ok (.unit u) => convBound 1 n (targetExp u.unit t)
  | .ok (.multi m) => n + (sideRoundings m.top m.bot + targetRoundings t + 2)
  | _ => n

/-- The number of rounding errors of an expression whose variables carry `n i` of them. -/
noncomputable def Calc.bound (env : ℕ → Val ℝ) (n : ℕ → ℝ) : Calc → ℝ
  | .var i => n i
  | .lit _ => 1
  | .mul a b => a.bound env n + b.bound env n + (2 + runRoundings (a.run env) + runRoundings (b.run env))
  | .div a b => a.bound env n + b.bound env n + (2 + runRoundings (a.run env) + runRoundings (b.run env))
  | .add a b => max (a.bound env n) (b.bound env n) + 1
  | .sub a b => max (a.bound env n) (b.bound env n) + 1
  | .neg a => a.bound env n
  | .pow a q => |(q : ℝ)| * a.bound env n + 1
  | .conv a t => convRoundings (a.bound env n) t (a.run env)

/-- No sum of quantities of opposite sign, no difference of quantities of the same sign and no conversion of a simple
temperature occurs in the exact run. -/
def Calc.NoCancellation (env : ℕ → Val ℝ) : Calc → Prop
  | .var _ => True
  | .lit _ => True
  | .mul a b => a.NoCancellation env ∧ b.NoCancellation env
  | .div a b => a.NoCancellation env ∧ b.NoCancellation env
  | .add a b => a.NoCancellation env ∧ b.NoCancellation env ∧
      ∀ x y, a.run env = .ok x → b.run env = .ok y → 0 ≤ x.amount * y.amount
  | .sub a b => a.NoCancellation env ∧ b.NoCancellation env ∧
      ∀ x y, a.run env = .ok x → b.run env = .ok y → x.amount * y.amount ≤ 0
  | .neg a => a.NoCancellation env
  | .pow a _ => a.NoCancellation env
  | .conv a _ => a.NoCancellation env ∧ ∀ u, a.run env = .ok (.unit u) → u.cls ≠ .temperature

variable {A : FloatArith}

theorem convBound_mul (ε n e : ℝ) (h : 0 ≤ ε) : convBound ε (n * ε) e = convBound 1 n e * ε := by
  unfold convBound
  rw [max_mul_of_nonneg _ _ h, max_mul_of_nonneg _ _ h]
  congr 1
  congr 1 <;> ring

/-- The conversion of one object. -/
theorem convertVal_near {k : ℝ} {x : Val (Fl A)} {y : Val ℝ} (h : x.Near (k * A.ε) y) (t : Sym)
    (hc : ∀ u, y = .unit u → u.cls ≠ .temperature) :
    SameOutcome (Val.Near (convRoundings k t (.ok y) * A.ε)) (convertVal x t) (convertVal y t) := by
  have he := A.nonneg
  cases x <;> cases y <;> simp only [Val.Near] at h <;> simp only [convertVal]
  all_goals try rfl
  case unit.unit u v =>
    have := convertUnit_near stdTables_near h (hc _ rfl) t
    rw [convBound_mul _ _ _ he] at this
    exact near_wrapUnit this
  case multi.multi u v =>
    have := C78_convert_compound h t
    rcases this.elim with ⟨e, e1, e2⟩ | ⟨a, b, e1, e2, hab⟩
    · simp only [e1, e2]; rfl
    · simp only [e1, e2]
      refine Val.Near.mono (x := .multi a) (y := .multi b) hab ?_
      simp only [convRoundings]
      linarith

/-- Whole calculations: without cancellation the floating point run ends like the exact run, in the same exception or with
the same units, and its value is within the number of rounding errors of the exact one. -/
theorem C78_calculation_partial (env : ℕ → Val (Fl A)) (env' : ℕ → Val ℝ) (n : ℕ → ℝ)
    (henv : ∀ i, (env i).Near (n i * A.ε) (env' i)) (c : Calc) (hc : c.NoCancellation env') :
    SameOutcome (Val.Near (c.bound env' n * A.ε)) (c.run env) (c.run env') := by
  have he := A.nonneg
  induction c with
  | var i => exact henv i
  | lit q =>
    have := A.lit_close q
    simpa [Calc.run, Calc.bound, pnum, SameOutcome, Val.Near] using this
  | mul a b iha ihb =>
    simp only [Calc.run, Calc.bound]
    rcases (iha hc.1).elim with ⟨e, e1, e2⟩ | ⟨x, x', e1, e2, hx⟩
    · rw [e1, e2]; rfl
    · rcases (ihb hc.2).elim with ⟨e, e3, e4⟩ | ⟨y, y', e3, e4, hy⟩
      · rw [e1, e2, e3, e4]; rfl
      · rw [e1, e2, e3, e4]
        simp only [ok_mul, runRoundings]
        exact (C78_product hx hy).mono fun _ _ h => h.mono (by linarith)
  | div a b iha ihb =>
    simp only [Calc.run, Calc.bound]
    rcases (iha hc.1).elim with ⟨e, e1, e2⟩ | ⟨x, x', e1, e2, hx⟩
    · rw [e1, e2]; rfl
    · rcases (ihb hc.2).elim with ⟨e, e3, e4⟩ | ⟨y, y', e3, e4, hy⟩
      · rw [e1, e2, e3, e4]; rfl
      · rw [e1, e2, e3, e4]
        simp only [ok_div, runRoundings]
        exact (C78_quotient hx hy).mono fun _ _ h => h.mono (by linarith)
  | add a b iha ihb =>
    simp only [Calc.run, Calc.bound]
    rcases (iha hc.1).elim with ⟨e, e1, e2⟩ | ⟨x, x', e1, e2, hx⟩
    · rw [e1, e2]; rfl
    · rcases (ihb hc.2.1).elim with ⟨e, e3, e4⟩ | ⟨y, y', e3, e4, hy⟩
      · rw [e1, e2, e3, e4]; rfl
      · have hs := hc.2.2 _ _ e2 e4
        rw [e1, e2, e3, e4]
        simp only [ok_add]
        refine (C78_sum hx hy hs).mono fun _ _ h => h.mono ?_
        rw [add_mul, max_mul_of_nonneg _ _ he]
        linarith
  | sub a b iha ihb =>
    simp only [Calc.run, Calc.bound]
    rcases (iha hc.1).elim with ⟨e, e1, e2⟩ | ⟨x, x', e1, e2, hx⟩
    · rw [e1, e2]; rfl
    · rcases (ihb hc.2.1).elim with ⟨e, e3, e4⟩ | ⟨y, y', e3, e4, hy⟩
      · rw [e1, e2, e3, e4]; rfl
      · have hs := hc.2.2 _ _ e2 e4
        rw [e1, e2, e3, e4]
        simp only [ok_sub]
        refine (C78_difference hx hy hs).mono fun _ _ h => h.mono ?_
        rw [add_mul, max_mul_of_nonneg _ _ he]
        linarith
  | neg a iha =>
    simp only [Calc.run, Calc.bound]
    rcases (iha hc).elim with ⟨e, e1, e2⟩ | ⟨x, x', e1, e2, hx⟩
    · rw [e1, e2]; rfl
    · rw [e1, e2]
      simp only [ok_neg]
      exact C78_negation hx
  | pow a q iha =>
    simp only [Calc.run, Calc.bound]
    rcases (iha hc).elim with ⟨e, e1, e2⟩ | ⟨x, x', e1, e2, hx⟩
    · rw [e1, e2]; rfl
    · rw [e1, e2]
      simp only [ok_pow]
      exact (C78_power hx q).mono fun _ _ h => h.mono (by linarith)
  | conv a t iha =>
    simp only [Calc.run, Calc.bound]
    rcases (iha hc.1).elim with ⟨e, e1, e2⟩ | ⟨x, x', e1, e2, hx⟩
    · rw [e1, e2]; rfl
    · have hu : ∀ u, x' = .unit u → u.cls ≠ .temperature := fun u h => hc.2 u (by rw [e2, h])
      rw [e1, e2]
      exact convertVal_near hx t hu

/-! ## Double precision -/

/-- The value 53 significant bits give: the nearest multiple of the last place. -/
theorem round53_eq (x : ℝ) (e n : ℤ) (h1 : (2 : ℝ) ^ e ≤ |x|) (h2 : |x| < (2 : ℝ) ^ (e + 1))
    (h3 : |x - n * 2 ^ (e - 52)| < 2 ^ (e - 53)) : round53 x = n * 2 ^ (e - 52) := by
  have hx : 0 < |x| := lt_of_lt_of_le (by positivity) h1
  have hl : Int.log 2 |x| = e := by
    apply le_antisymm
    · have : Int.log 2 |x| < e + 1 := (Int.lt_zpow_iff_log_lt (by norm_num) hx).1 (by exact_mod_cast h2)
      omega
    · exact (Int.zpow_le_iff_le_log (by norm_num) hx).1 (by exact_mod_cast h1)
  have hs : (0 : ℝ) < 2 ^ (e - 52) := by positivity
  unfold round53
  rw [if_neg (abs_pos.1 hx), hl]
  congr 1
  have h4 : |x / 2 ^ (e - 52) - n| < 1 / 2 := by
    have e1 : x / 2 ^ (e - 52) - n = (x - n * 2 ^ (e - 52)) / 2 ^ (e - 52) := by field_simp
    rw [e1, abs_div, abs_of_pos hs, div_lt_iff₀ hs]
    have : (2 : ℝ) ^ (e - 53) = 1 / 2 * 2 ^ (e - 52) := by
      rw [show e - 53 = e - 52 - 1 by ring, zpow_sub_one₀ (by norm_num)]; ring
    rwa [← this]
  rw [abs_lt] at h4
  have : round (x / 2 ^ (e - 52)) = n := by
    rw [round_eq, Int.floor_eq_iff]
    constructor <;> linarith
  exact_mod_cast this

/-- `n` rounding errors of double precision, in the usual form. -/
theorem C78_double {n x y : ℝ} (hn : n ≤ 2 ^ 50) (h : Close (n * double.ε) x y) : |x - y| ≤ n * 2⁻¹ ^ 51 * |y| := by
  have he : double.ε ≤ 2⁻¹ ^ 52 := by
    show -Real.log (1 - 2⁻¹ ^ 53) ≤ _
    have := Real.one_sub_inv_le_log_of_pos (show (0 : ℝ) < 1 - 2⁻¹ ^ 53 by norm_num)
    have h2 : (1 - (2⁻¹ : ℝ) ^ 53)⁻¹ ≤ 1 + 2⁻¹ ^ 52 := by norm_num
    linarith
  have he0 : 0 < double.ε := by
    show 0 < -Real.log (1 - 2⁻¹ ^ 53)
    have := Real.log_neg (show (0 : ℝ) < 1 - 2⁻¹ ^ 53 by norm_num) (by norm_num)
    linarith
  have hn0 : 0 ≤ n := nonneg_of_mul_nonneg_left h.nonneg he0
  have hk : n * double.ε ≤ n * 2⁻¹ ^ 52 := mul_le_mul_of_nonneg_left he hn0
  have hk1 : n * double.ε ≤ 1 := by
    have : n * (2⁻¹ : ℝ) ^ 52 ≤ 2 ^ 50 * 2⁻¹ ^ 52 := mul_le_mul_of_nonneg_right hn (by positivity)
    norm_num at this ⊢
    linarith
  refine h.abs_sub_le.trans (mul_le_mul_of_nonneg_right ?_ (abs_nonneg _))
  have := Real.abs_exp_sub_one_le (x := n * double.ε) (by rw [abs_of_nonneg h.nonneg]; exact hk1)
  rw [abs_of_nonneg h.nonneg] at this
  have h3 := le_abs_self (Real.exp (n * double.ε) - 1)
  have : n * (2⁻¹ : ℝ) ^ 51 = 2 * (n * 2⁻¹ ^ 52) := by ring
  linarith

theorem round53_int (n : ℤ) (e : ℤ) (h1 : 2 ^ 52 ≤ |n|) (h2 : |n| < 2 ^ 53) : round53 (n * 2 ^ e) = n * 2 ^ e := by
  have hp : (0 : ℝ) < 2 ^ e := by positivity
  have ha : |(n : ℝ) * 2 ^ e| = |(n : ℝ)| * 2 ^ e := by rw [abs_mul, abs_of_pos hp]
  have h1' : (2 : ℝ) ^ 52 ≤ |(n : ℝ)| := by exact_mod_cast h1
  have h2' : |(n : ℝ)| < (2 : ℝ) ^ 53 := by exact_mod_cast h2
  have := round53_eq (n * 2 ^ e) (e + 52) n
    (by rw [ha, zpow_add₀ (by norm_num), mul_comm]; exact mul_le_mul_of_nonneg_right (by exact_mod_cast h1') hp.le)
    (by rw [ha, show e + 52 + 1 = e + 53 by ring, zpow_add₀ (by norm_num), mul_comm]
        exact mul_lt_mul_of_pos_left (by exact_mod_cast h2') hp)
    (by rw [show e + 52 - 52 = e by ring]; simp; positivity)
  rwa [show e + 52 - 52 = e by ring] at this

/-- Masses of 0.1, 0.7 and 0.8 kg. -/
noncomputable def tenths : ℕ → Val ℝ
  | 0 => .unit ⟨.mass, 1 / 10, c!"kg", 1⟩
  | 1 => .unit ⟨.mass, 7 / 10, c!"kg", 1⟩
  | _ => .unit ⟨.mass, 8 / 10, c!"kg", 1⟩

/-- The same masses written with double precision literals. -/
noncomputable def doubleTenths : ℕ → Val (Fl double)
  | 0 => .unit ⟨.mass, ((1 / 10 : ℚ) : Fl double), c!"kg", 1⟩
  | 1 => .unit ⟨.mass, ((7 / 10 : ℚ) : Fl double), c!"kg", 1⟩
  | _ => .unit ⟨.mass, ((8 / 10 : ℚ) : Fl double), c!"kg", 1⟩

theorem tenths_near (i : ℕ) : (doubleTenths i).Near (1 * double.ε) (tenths i) := by
  rw [one_mul]
  rcases i with _ | _ | i
  · have := double.lit_close (1 / 10); push_cast at this; exact ⟨rfl, rfl, rfl, this⟩
  · have := double.lit_close (7 / 10); push_cast at this; exact ⟨rfl, rfl, rfl, this⟩
  · have := double.lit_close (8 / 10); push_cast at this; exact ⟨rfl, rfl, rfl, this⟩

/-- With cancellation no bound on the relative error holds: `0.1 kg + 0.7 kg - 0.8 kg` is `-2⁻⁵³ kg` instead of zero. -/
theorem C78_cancellation_false :
    ((Calc.sub (.add (.var 0) (.var 1)) (.var 2)).run doubleTenths
      = .ok (.unit ⟨.mass, ⟨-(2⁻¹ ^ 53)⟩, c!"kg", 1⟩)) ∧
    ((Calc.sub (.add (.var 0) (.var 1)) (.var 2)).run tenths = .ok (.unit ⟨.mass, 0, c!"kg", 1⟩)) ∧
    ∀ k, ¬ SameOutcome (Val.Near k) ((Calc.sub (.add (.var 0) (.var 1)) (.var 2)).run doubleTenths)
      ((Calc.sub (.add (.var 0) (.var 1)) (.var 2)).run tenths) := by
  have r1 : round53 (1 / 10) = 7205759403792794 * 2 ^ (-56 : ℤ) := by
    have := round53_eq (1 / 10) (-4) 7205759403792794 (by norm_num [abs_of_pos]) (by norm_num [abs_of_pos])
      (by norm_num [abs_of_neg])
    norm_num at this ⊢
    exact this
  have r7 : round53 (7 / 10) = 6305039478318694 * 2 ^ (-53 : ℤ) := by
    have := round53_eq (7 / 10) (-1) 6305039478318694 (by norm_num [abs_of_pos]) (by norm_num [abs_of_pos])
      (by norm_num [abs_of_pos])
    norm_num at this ⊢
    exact this
  have r8 : round53 (8 / 10) = 7205759403792794 * 2 ^ (-53 : ℤ) := by
    have := round53_eq (8 / 10) (-1) 7205759403792794 (by norm_num [abs_of_pos]) (by norm_num [abs_of_pos])
      (by norm_num [abs_of_neg])
    norm_num at this ⊢
    exact this
  have rs : round53 (round53 (1 / 10) + round53 (7 / 10)) = 7205759403792793 * 2 ^ (-53 : ℤ) := by
    rw [r1, r7]
    have := round53_eq (7205759403792794 * 2 ^ (-56 : ℤ) + 6305039478318694 * 2 ^ (-53 : ℤ)) (-1) 7205759403792793
      (by norm_num [abs_of_pos]) (by norm_num [abs_of_pos]) (by norm_num [abs_of_pos])
    rw [this]
    norm_num
  have rd : round53 (round53 (round53 (1 / 10) + round53 (7 / 10)) - round53 (8 / 10)) = -(2⁻¹ ^ 53) := by
    rw [rs, r8]
    have := round53_int (-2 ^ 52) (-105) (by norm_num) (by norm_num)
    norm_num at this ⊢
    exact this
  have h1 : (Calc.sub (.add (.var 0) (.var 1)) (.var 2)).run doubleTenths
      = .ok (.unit ⟨.mass, ⟨round53 (round53 (round53 ((1 / 10 : ℚ) : ℝ) + round53 ((7 / 10 : ℚ) : ℝ))
          - round53 ((8 / 10 : ℚ) : ℝ))⟩, c!"kg", 1⟩) := rfl
  have h2 : (Calc.sub (.add (.var 0) (.var 1)) (.var 2)).run tenths
      = .ok (.unit ⟨.mass, (1 / 10 + 7 / 10) - 8 / 10, c!"kg", 1⟩) := rfl
  push_cast at h1
  rw [rd] at h1
  have e : (1 / 10 + 7 / 10 - 8 / 10 : ℝ) = 0 := by norm_num
  rw [e] at h2
  refine ⟨h1, h2, fun k h => ?_⟩
  rw [h1, h2] at h
  have := h.2.2.2.eq_zero_iff.2 rfl
  norm_num at this

end Verif
