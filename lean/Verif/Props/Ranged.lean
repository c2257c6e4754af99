import Verif.Props.FloatFormula
import Verif.Lemmas.RangedConvert
import Mathlib.Analysis.Complex.ExponentialBounds

/-!
# C105: overflow and underflow

The error bounds of C78 and C82 assume that every operation is accurate.  Double precision is not: results beyond 2¹⁰²⁴ are
infinite and below 2⁻¹⁰²² digits are lost.  Here the accuracy is assumed only for results in the range of the machine.  A
formula that loses no number to overflow or underflow is as accurate as C82 says, with every quantity and every conversion
of the library; and for formulas over plain numbers nothing is lost when the exact intermediate results are in the range
with a margin for the rounding errors.
-/

namespace Verif

variable {M : FloatMachine}

/-- The number of a result was not lost. -/
def Val.Kept : Val (Ranged M) → Prop
  | .num x => x ≠ .lost
  | .unit u => u.value ≠ .lost
  | .multi m => m.value ≠ .lost
  | _ => False

/-- A finite number of relative precision `k`. -/
def Ranged.Accurate (k : ℝ) : Ranged M → ℝ → Prop
  | .fin x, y => Close k x y
  | .lost, _ => False

/-- A number or quantity of the same kind, class and units whose number is not lost and has relative precision `k`. -/
def Val.Accurate (k : ℝ) : Val (Ranged M) → Val ℝ → Prop
  | .num x, .num y => x.Accurate k y
  | .unit u, .unit w => u.cls = w.cls ∧ u.unit = w.unit ∧ u.exp = w.exp ∧ u.value.Accurate k w.value
  | .multi m, .multi w => m.cls = w.cls ∧ m.top = w.top ∧ m.bot = w.bot ∧ m.value.Accurate k w.value
  | _, _ => False

theorem Val.Accurate.held {k : ℝ} {v : Val (Ranged M)} {y : Val ℝ} (h : v.Accurate k y) : ∃ w, v.Held w ∧ w.Near k y := by
  cases v <;> cases y <;> simp only [Val.Accurate] at h
  case num.num x y =>
    cases x with
    | lost => cases h
    | fin x => exact ⟨.num ⟨x⟩, rfl, h⟩
  case unit.unit u w =>
    obtain ⟨c, x, s, e⟩ := u
    cases x with
    | lost => cases h.2.2.2
    | fin x => exact ⟨.unit ⟨c, ⟨x⟩, s, e⟩, ⟨rfl, rfl, rfl, rfl⟩, h⟩
  case multi.multi m w =>
    obtain ⟨c, x, t, b⟩ := m
    cases x with
    | lost => cases h.2.2.2
    | fin x => exact ⟨.multi ⟨c, ⟨x⟩, t, b⟩, ⟨rfl, rfl, rfl, rfl⟩, h⟩

theorem Val.Held.accurate {k : ℝ} {v : Val (Ranged M)} {w : Val M.Num} {y : Val ℝ} (h : v.Held w) (hn : w.Near k y) :
    v.Accurate k y := by
  cases v <;> cases w <;> simp only [Val.Held] at h <;> cases y <;> simp only [Val.Near] at hn
  · rw [h]; exact hn
  · obtain ⟨h1, h2, h3, h4⟩ := h
    obtain ⟨g1, g2, g3, g4⟩ := hn
    exact ⟨h1.trans g1, h2.trans g2, h3.trans g3, by rw [h4]; exact g4⟩
  · obtain ⟨h1, h2, h3, h4⟩ := h
    obtain ⟨g1, g2, g3, g4⟩ := hn
    exact ⟨h1.trans g1, h2.trans g2, h3.trans g3, by rw [h4]; exact g4⟩

theorem Val.Kept.held {v : Val (Ranged M)} (h : v.Kept) : ∃ w, v.Held w := by
  cases v <;> simp only [Val.Kept] at h
  case num x =>
    cases x with
    | lost => exact absurd rfl h
    | fin x => exact ⟨.num ⟨x⟩, rfl⟩
  case unit u =>
    obtain ⟨c, x, s, e⟩ := u
    cases x with
    | lost => exact absurd rfl h
    | fin x => exact ⟨.unit ⟨c, ⟨x⟩, s, e⟩, rfl, rfl, rfl, rfl⟩
  case multi m =>
    obtain ⟨c, x, t, b⟩ := m
    cases x with
    | lost => exact absurd rfl h
    | fin x => exact ⟨.multi ⟨c, ⟨x⟩, t, b⟩, rfl, rfl, rfl, rfl⟩

theorem Val.Held.unique {v : Val (Ranged M)} {w w' : Val M.Num} (h : v.Held w) (h' : v.Held w') : w = w' := by
  cases v <;> cases w <;> simp only [Val.Held] at h <;> cases w' <;> simp only [Val.Held] at h'
  · rw [Ranged.up_injective (h.symm.trans h')]
  · rw [UnitV.Held.unique h h']
  · rename_i m m1 m2
    obtain ⟨c, x, t, b⟩ := m1
    obtain ⟨c', x', t', b'⟩ := m2
    obtain ⟨h1, h2, h3, h4⟩ := h
    obtain ⟨g1, g2, g3, g4⟩ := h'
    simp only at h1 h2 h3 h4 g1 g2 g3 g4
    rw [← h1, ← h2, ← h3, ← g1, ← g2, ← g3, Ranged.up_injective (h4.symm.trans g4)]

/-- A run that loses nothing is the run over floating point numbers. -/
theorem run_held {env : ℕ → Val (Ranged M)} {env' : ℕ → Val M.Num} (henv : ∀ i, (env i).Held (env' i)) (c : Code)
    {v : Val (Ranged M)} {w : Val M.Num} (h : c.run env = .ok v) (hw : v.Held w) : c.run env' = .ok w := by
  have two : ∀ {op : Val (Ranged M) → Val (Ranged M) → PyM (Val (Ranged M))} {op' : Val M.Num → Val M.Num → PyM (Val M.Num)}
      {x y : PyM (Val (Ranged M))} {x' y' : PyM (Val M.Num)} {v w}, Up2 op op' →
      (∀ v w, x = .ok v → v.Held w → x' = .ok w) → (∀ v w, y = .ok v → v.Held w → y' = .ok w) →
      lift2 op x y = .ok v → v.Held w → lift2 op' x' y' = .ok w := by
    intro op op' x y x' y' v w hop hx hy h hw
    cases x with
    | error e => cases h
    | ok a =>
      cases y with
      | error e => cases h
      | ok b =>
        obtain ⟨a', b', ha, hb, e⟩ := hop a b v w h hw
        rw [hx a a' rfl ha, hy b b' rfl hb]
        exact e
  have one : ∀ {op : Val (Ranged M) → PyM (Val (Ranged M))} {op' : Val M.Num → PyM (Val M.Num)}
      {x : PyM (Val (Ranged M))} {x' : PyM (Val M.Num)} {v w}, Up1 op op' →
      (∀ v w, x = .ok v → v.Held w → x' = .ok w) → lift1 op x = .ok v → v.Held w → lift1 op' x' = .ok w := by
    intro op op' x x' v w hop hx h hw
    cases x with
    | error e => cases h
    | ok a =>
      obtain ⟨a', ha, e⟩ := hop a v w h hw
      rw [hx a a' rfl ha]
      exact e
  induction c generalizing v w with
  | var i =>
    cases h
    rw [hw.unique (henv i)]; rfl
  | lit q =>
    cases h
    obtain ⟨x, hx, rfl⟩ := Val.held_num hw
    show Except.ok (Val.num (q : M.Num)) = _
    rw [Ranged.ratCast_up hx]
  | pi =>
    cases h
    obtain ⟨x, hx, rfl⟩ := Val.held_num hw
    have : (⟨M.pi⟩ : M.Num).up = x.up := hx
    rw [← Ranged.up_injective this]
    rfl
  | const cl q u =>
    simp only [Code.run, constant] at h ⊢
    split at h
    · cases h
    next m hm =>
    cases h
    cases w <;> simp only [Val.Held] at hw
    obtain ⟨x, hx, e⟩ := mkMulti_up hm hw
    rw [Ranged.ratCast_up hx, e]
  | mul a b iha ihb => exact two val_mul_up (fun _ _ => iha) (fun _ _ => ihb) h hw
  | div a b iha ihb => exact two val_div_up (fun _ _ => iha) (fun _ _ => ihb) h hw
  | add a b iha ihb => exact two val_add_up (fun _ _ => iha) (fun _ _ => ihb) h hw
  | sub a b iha ihb => exact two val_sub_up (fun _ _ => iha) (fun _ _ => ihb) h hw
  | neg a iha => exact one val_neg_up (fun _ _ => iha) h hw
  | pow a q iha => exact one (val_pow_up q) (fun _ _ => iha) h hw
  | fn f a iha => exact one (call_up f) (fun _ _ => iha) h hw
  | conv a t iha => exact one (callConvert_up t) (fun _ _ => iha) h hw

/-- A formula that returns a number or quantity and loses nothing on the way is accurate: the exact formula returns as well,
with the same class and units, and the numbers agree up to the rounding errors counted in C82. -/
theorem C105_formula (env : ℕ → Val (Ranged M)) (env' : ℕ → Val ℝ) (n : ℕ → ℝ)
    (henv : ∀ i, (env i).Accurate (n i * M.ε) (env' i)) (c : Code) (hc : c.Stable M.ε env' n) {v : Val (Ranged M)}
    (h : c.run env = .ok v) (hv : v.Kept) : ∃ y, c.run env' = .ok y ∧ v.Accurate (c.bound env' n * M.ε) y := by
  choose env'' h1 h2 using fun i => (henv i).held
  obtain ⟨w, hw⟩ := hv.held
  have e := run_held h1 c h hw
  rcases (C82_formula (M := M.math) env'' env' n h2 c hc).elim with ⟨er, e1, e2⟩ | ⟨a, b, e1, e2, hab⟩
  · rw [e] at e1; cases e1
  · rw [e] at e1
    cases e1
    exact ⟨b, e2, hw.accurate hab⟩

/-! ## Double precision -/

theorem roundEven_close (x : ℝ) : |(roundEven x : ℝ) - x| ≤ 1 / 2 := by
  have h1 := Int.floor_le x
  have h2 := Int.lt_floor_add_one x
  unfold roundEven
  rw [abs_le]
  split
  · constructor <;> linarith
  · split
    · push_cast; constructor <;> linarith
    · split
      · constructor <;> linarith
      · push_cast; constructor <;> linarith

theorem roundDouble_close {x : ℝ} (h : DoubleNormal x) : |roundDouble x - x| ≤ 2⁻¹ ^ 53 * |x| := by
  rcases h with rfl | ⟨h, -⟩
  · simp [roundDouble, roundEven]
  have hx : 0 < |x| := lt_of_lt_of_le (by positivity) h
  have hlog : -1022 ≤ Int.log 2 |x| := by
    rw [← Int.zpow_le_iff_le_log (by norm_num) hx]
    exact_mod_cast h
  have hd : lastDigit x = Int.log 2 |x| - 52 := by
    unfold lastDigit
    exact max_eq_left (by omega)
  unfold roundDouble
  rw [hd]
  set e := Int.log 2 |x|
  have h1 : (2 : ℝ) ^ e ≤ |x| := by
    have := Int.zpow_log_le_self (b := 2) (by norm_num) hx
    exact_mod_cast this
  have hs : (0 : ℝ) < 2 ^ (e - 52) := by positivity
  have h2 := roundEven_close (x / 2 ^ (e - 52))
  have e1 : (roundEven (x / 2 ^ (e - 52)) : ℝ) * 2 ^ (e - 52) - x =
      (roundEven (x / 2 ^ (e - 52)) - x / 2 ^ (e - 52)) * 2 ^ (e - 52) := by field_simp
  rw [e1, abs_mul, abs_of_pos hs]
  have h3 : (2 : ℝ) ^ (e - 52) = 2 ^ e * 2⁻¹ ^ 52 := by
    rw [zpow_sub₀ (by norm_num)]; norm_num; ring
  calc _ ≤ 1 / 2 * (2 : ℝ) ^ (e - 52) := mul_le_mul_of_nonneg_right h2 hs.le
    _ = 2⁻¹ ^ 53 * 2 ^ e := by rw [h3]; ring
    _ ≤ _ := mul_le_mul_of_nonneg_left h1 (by positivity)

theorem roundDouble_near {x : ℝ} (h : DoubleNormal x) : Close (-Real.log (1 - 2⁻¹ ^ 53)) (roundDouble x) x :=
  close_of_abs_sub_le (by positivity) (by norm_num) (roundDouble_close h)

theorem half_le_largest : (2 : ℝ) ^ (1023 : ℤ) ≤ 2 ^ (1024 : ℤ) - 2 ^ (970 : ℤ) := by
  have h1 : (2 : ℝ) ^ (1024 : ℤ) = 2 ^ (1023 : ℤ) * 2 := by
    rw [← zpow_add_one₀ (by norm_num)]; norm_num
  have h2 : (2 : ℝ) ^ (970 : ℤ) ≤ 2 ^ (1023 : ℤ) := zpow_le_zpow_right₀ (by norm_num) (by norm_num)
  generalize (2 : ℝ) ^ (1024 : ℤ) = a at *
  generalize (2 : ℝ) ^ (1023 : ℤ) = b at *
  generalize (2 : ℝ) ^ (970 : ℤ) = c at *
  linarith

/-- IEEE 754 double precision. -/
noncomputable def binary64 : FloatMachine where
  ε := -Real.log (1 - 2⁻¹ ^ 53)
  normal := DoubleNormal
  add x y := roundDouble (x + y)
  sub x y := roundDouble (x - y)
  mul x y := roundDouble (x * y)
  div x y := roundDouble (x / y)
  pow x e := roundDouble (x ^ (e : ℝ))
  lit q := roundDouble q
  exp x := roundDouble (Real.exp x)
  log x := roundDouble (Real.log x)
  sin x := roundDouble (Real.sin x)
  erf x := roundDouble (Verif.erf x)
  erfc x := roundDouble (1 - Verif.erf x)
  pi := roundDouble Real.pi
  nonneg := (roundDouble_near (Or.inl rfl)).nonneg
  add_close _ _ h := roundDouble_near h
  sub_close _ _ h := roundDouble_near h
  mul_close _ _ h := roundDouble_near h
  div_close _ _ _ h := roundDouble_near h
  pow_close _ _ _ h := roundDouble_near h
  lit_close _ h := roundDouble_near h
  exp_close _ h := roundDouble_near h
  log_close _ _ h := roundDouble_near h
  sin_close _ h := roundDouble_near h
  erf_close _ h := roundDouble_near h
  erfc_close _ h := roundDouble_near h
  pi_close := roundDouble_near (by
    right
    rw [abs_of_pos Real.pi_pos]
    constructor
    · have : (2 : ℝ) ^ (-1022 : ℤ) ≤ 1 := zpow_le_one_of_nonpos₀ (by norm_num) (by norm_num)
      linarith [Real.pi_gt_three]
    · have h1 : (2 : ℝ) ^ (2 : ℤ) ≤ 2 ^ (1023 : ℤ) := zpow_le_zpow_right₀ (by norm_num) (by norm_num)
      have h2 : (2 : ℝ) ^ (2 : ℤ) = 4 := by norm_num
      rw [h2] at h1
      exact Real.pi_lt_four.trans_le (h1.trans half_le_largest))

/-- Double precision is not accurate beyond its range: below the smallest number everything is rounded to zero. -/
theorem C105_range_needed : ¬ ∃ A : FloatArith, A.mul = fun x y => roundDouble (x * y) := by
  rintro ⟨A, h⟩
  have h1 := A.mul_close (2 ^ (-600 : ℤ)) (2 ^ (-600 : ℤ))
  have e : (2 : ℝ) ^ (-600 : ℤ) * 2 ^ (-600 : ℤ) = 2 ^ (-1200 : ℤ) := by rw [← zpow_add₀ (by norm_num)]; norm_num
  rw [h] at h1
  simp only [e] at h1
  have hlog : Int.log 2 |(2 : ℝ) ^ (-1200 : ℤ)| = -1200 := by
    rw [abs_of_pos (by positivity)]
    exact_mod_cast Int.log_zpow (R := ℝ) (b := 2) (by norm_num) (-1200)
  have hd : lastDigit ((2 : ℝ) ^ (-1200 : ℤ)) = -1074 := by
    unfold lastDigit
    rw [hlog]; norm_num
  have hq : (2 : ℝ) ^ (-1200 : ℤ) / 2 ^ (-1074 : ℤ) = 2 ^ (-126 : ℤ) := by rw [← zpow_sub₀ (by norm_num)]; norm_num
  have hf : ⌊(2 : ℝ) ^ (-126 : ℤ)⌋ = 0 := by
    rw [Int.floor_eq_zero_iff]
    constructor
    · positivity
    · norm_num
  have hr : roundDouble ((2 : ℝ) ^ (-1200 : ℤ)) = 0 := by
    unfold roundDouble
    rw [hd, hq]
    unfold roundEven
    rw [hf]
    norm_num
  rw [hr] at h1
  exact absurd (h1.eq_zero_iff.1 rfl) (by positivity)

/-! ## When nothing is lost -/

/-- A formula over plain numbers. -/
def Code.Numeric : Code → Prop
  | .var _ => True
  | .lit _ => True
  | .pi => True
  | .const _ _ _ => False
  | .mul a b => a.Numeric ∧ b.Numeric
  | .div a b => a.Numeric ∧ b.Numeric
  | .add a b => a.Numeric ∧ b.Numeric
  | .sub a b => a.Numeric ∧ b.Numeric
  | .neg a => a.Numeric
  | .pow a _ => a.Numeric
  | .fn _ a => a.Numeric
  | .conv _ _ => False

/-- `y` is in the range of the machine with a margin of relative precision `k`. -/
def FloatMachine.Safe (M : FloatMachine) (k y : ℝ) : Prop := ∀ x, Close k x y → M.normal x

/-- Every exact intermediate result is in the range of the machine, with a margin for its rounding errors. -/
def Code.InRange (M : FloatMachine) (env : ℕ → Val ℝ) (n : ℕ → ℝ) : Code → Prop
  | .var _ => True
  | .lit q => M.normal q
  | .pi => True
  | .const _ q _ => M.normal q
  | .mul a b => a.InRange M env n ∧ b.InRange M env n ∧
      M.Safe ((Code.mul a b).bound env n * M.ε) (runAmount ((Code.mul a b).run env))
  | .div a b => a.InRange M env n ∧ b.InRange M env n ∧
      M.Safe ((Code.div a b).bound env n * M.ε) (runAmount ((Code.div a b).run env))
  | .add a b => a.InRange M env n ∧ b.InRange M env n ∧
      M.Safe ((Code.add a b).bound env n * M.ε) (runAmount ((Code.add a b).run env))
  | .sub a b => a.InRange M env n ∧ b.InRange M env n ∧
      M.Safe ((Code.sub a b).bound env n * M.ε) (runAmount ((Code.sub a b).run env))
  | .neg a => a.InRange M env n
  | .pow a q => a.InRange M env n ∧ M.Safe ((Code.pow a q).bound env n * M.ε) (runAmount ((Code.pow a q).run env))
  | .fn f a => a.InRange M env n ∧ M.Safe ((Code.fn f a).bound env n * M.ε) (runAmount ((Code.fn f a).run env))
  | .conv a _ => a.InRange M env n

theorem Ranged.checked_pos {x r : ℝ} (h : M.normal x) : (Ranged.checked x r : Ranged M) = .fin r := by
  rw [Ranged.checked, if_pos h]

theorem Ranged.checked_neg {x r : ℝ} (h : ¬ M.normal x) : (Ranged.checked x r : Ranged M) = .lost := by
  rw [Ranged.checked, if_neg h]

/-- Two runs that end in the same exception or with numbers of relative precision `k`. -/
def NumOutcome (k : ℝ) : PyM (Val (Ranged M)) → PyM (Val ℝ) → Prop :=
  SameOutcome fun v y => ∃ a b, v = .num (.fin a) ∧ y = .num b ∧ Close k a b

theorem NumOutcome.num {k a b x : ℝ} {r : Ranged M} (hr : r = Ranged.checked x a) (hx : M.normal x) (h : Close k a b) :
    NumOutcome (M := M) k (.ok (.num r)) (.ok (.num b)) := by
  refine ⟨a, b, ?_, rfl, h⟩
  rw [hr, Ranged.checked_pos hx]

/-- A formula over plain numbers whose exact intermediate results are in range loses nothing: it ends in the same exception
as the exact formula, or returns a finite number as accurate as C82 says. -/
theorem C105_numbers (env : ℕ → Val (Ranged M)) (env' : ℕ → Val ℝ) (n : ℕ → ℝ)
    (henv : ∀ i, ∃ a b, env i = .num (.fin a) ∧ env' i = .num b ∧ Close (n i * M.ε) a b) (c : Code) (hn : c.Numeric)
    (hc : c.Stable M.ε env' n) (hr : c.InRange M env' n) : NumOutcome (c.bound env' n * M.ε) (c.run env) (c.run env') := by
  have he := M.nonneg
  induction c with
  | var i => exact henv i
  | lit q => exact NumOutcome.num rfl hr (by simpa [Code.bound] using M.lit_close q hr)
  | pi => exact ⟨M.pi, Real.pi, rfl, rfl, by simpa [Code.bound] using M.pi_close⟩
  | const cl q u => exact hn.elim
  | mul a b iha ihb =>
    rcases (iha hn.1 hc.1 hr.1).elim with ⟨e, e1, e2⟩ | ⟨_, _, e1, e2, x, x', rfl, rfl, hx⟩
    · simp only [Code.run, e1, e2]; rfl
    rcases (ihb hn.2 hc.2 hr.2.1).elim with ⟨e, e3, e4⟩ | ⟨_, _, e3, e4, y, y', rfl, rfl, hy⟩
    · simp only [Code.run, e1, e2, e3, e4]; rfl
    have hs := hr.2.2
    simp only [Code.run, Code.bound, e1, e2, e3, e4, runRoundings, Val.roundings] at hs ⊢
    have h1 : M.normal (x * y) := hs _ ((hx.mul hy).mono (by linarith))
    exact NumOutcome.num rfl h1 (((M.mul_close x y h1).trans (hx.mul hy)).mono (by linarith))
  | div a b iha ihb =>
    rcases (iha hn.1 hc.1 hr.1).elim with ⟨e, e1, e2⟩ | ⟨_, _, e1, e2, x, x', rfl, rfl, hx⟩
    · simp only [Code.run, e1, e2]; rfl
    rcases (ihb hn.2 hc.2 hr.2.1).elim with ⟨e, e3, e4⟩ | ⟨_, _, e3, e4, y, y', rfl, rfl, hy⟩
    · simp only [Code.run, e1, e2, e3, e4]; rfl
    have hs := hr.2.2
    simp only [Code.run, Code.bound, e1, e2, e3, e4, runRoundings, Val.roundings] at hs ⊢
    simp only [ok_div, Val.div, pyDiv] at hs ⊢
    by_cases h0 : y = 0
    · have h0' := hy.eq_zero_iff.1 h0
      rw [if_pos (by rw [h0]; rfl), if_pos h0']
      rfl
    · have h0' := fun h => h0 (hy.eq_zero_iff.2 h)
      rw [if_neg h0'] at hs ⊢
      rw [if_neg (by intro h; injection h with h; exact h0 h)]
      have h1 : M.normal (x / y) := hs _ ((hx.div hy).mono (by linarith))
      exact NumOutcome.num rfl h1 (((M.div_close x y h0 h1).trans (hx.div hy)).mono (by linarith))
  | add a b iha ihb =>
    rcases (iha hn.1 hc.1 hr.1).elim with ⟨e, e1, e2⟩ | ⟨_, _, e1, e2, x, x', rfl, rfl, hx⟩
    · simp only [Code.run, e1, e2]; rfl
    rcases (ihb hn.2 hc.2.1 hr.2.1).elim with ⟨e, e3, e4⟩ | ⟨_, _, e3, e4, y, y', rfl, rfl, hy⟩
    · simp only [Code.run, e1, e2, e3, e4]; rfl
    have hs := hr.2.2
    have hst := hc.2.2
    simp only [Code.run, Code.bound, e1, e2, e3, e4] at hs hst ⊢
    have h := hx.sum he hy hst
    have h1 : M.normal (x + y) := hs _ (h.mono (by simp only [runAmount, Val.amount]; linarith))
    exact NumOutcome.num rfl h1 (((M.add_close x y h1).trans h).mono (by simp only [runAmount, Val.amount]; linarith))
  | sub a b iha ihb =>
    rcases (iha hn.1 hc.1 hr.1).elim with ⟨e, e1, e2⟩ | ⟨_, _, e1, e2, x, x', rfl, rfl, hx⟩
    · simp only [Code.run, e1, e2]; rfl
    rcases (ihb hn.2 hc.2.1 hr.2.1).elim with ⟨e, e3, e4⟩ | ⟨_, _, e3, e4, y, y', rfl, rfl, hy⟩
    · simp only [Code.run, e1, e2, e3, e4]; rfl
    have hs := hr.2.2
    have hst := hc.2.2
    simp only [Code.run, Code.bound, e1, e2, e3, e4] at hs hst ⊢
    have h := hx.sum he hy.neg hst
    simp only [← sub_eq_add_neg] at h
    have h1 : M.normal (x - y) := hs _ (h.mono (by simp only [runAmount, Val.amount]; linarith))
    exact NumOutcome.num rfl h1 (((M.sub_close x y h1).trans h).mono (by simp only [runAmount, Val.amount]; linarith))
  | neg a iha =>
    rcases (iha hn hc hr).elim with ⟨e, e1, e2⟩ | ⟨_, _, e1, e2, x, x', rfl, rfl, hx⟩
    · simp only [Code.run, e1, e2]; rfl
    simp only [Code.run, Code.bound, e1, e2]
    exact ⟨-x, -x', rfl, rfl, hx.neg⟩
  | pow a q iha =>
    rcases (iha hn hc hr.1).elim with ⟨e, e1, e2⟩ | ⟨_, _, e1, e2, x, x', rfl, rfl, hx⟩
    · simp only [Code.run, e1, e2]; rfl
    have hs := hr.2
    simp only [Code.run, Code.bound, e1, e2] at hs ⊢
    simp only [ok_pow, Val.pow, PyPow.pow] at hs ⊢
    simp only [hx.eq_zero_iff, hx.neg_iff]
    by_cases g1 : x' = 0 ∧ q < 0
    · rw [if_pos g1, if_pos g1]; rfl
    by_cases g2 : x' < 0 ∧ q.den ≠ 1
    · rw [if_neg g1, if_neg g1, if_pos g2, if_pos g2]; rfl
    rw [if_neg g1, if_neg g2] at hs
    rw [if_neg g1, if_neg g1, if_neg g2, if_neg g2]
    have hd : Close.PowDomain x' q := by
      rcases lt_trichotomy x' 0 with h0 | h0 | h0
      · exact Or.inr (Or.inr ⟨h0, by by_contra hc; exact g2 ⟨h0, hc⟩⟩)
      · exact Or.inr (Or.inl ⟨h0, by by_contra hc; exact g1 ⟨h0, not_le.1 hc⟩⟩)
      · exact Or.inl h0
    have h := hx.rpow hd
    have h1 : M.normal (x ^ (q : ℝ)) := hs _ (h.mono (by linarith))
    exact NumOutcome.num rfl h1 (((M.pow_close x q (hx.powDomain hd) h1).trans h).mono (by linarith))
  | fn f a iha =>
    rcases (iha hn hc.1 hr.1).elim with ⟨e, e1, e2⟩ | ⟨_, _, e1, e2, x, x', rfl, rfl, hx⟩
    · simp only [Code.run, e1, e2]; rfl
    have hs := hr.2
    have hst := hc.2
    simp only [Code.run, Code.bound, e1, e2] at hs hst ⊢
    have fin : ∀ (r : ℝ) (g : ℝ → ℝ), Close ((f.roundings (a.bound env' n) x' - 1) * M.ε) (g x) (g x') →
        (M.normal (g x) → Close M.ε r (g x)) → M.Safe (f.roundings (a.bound env' n) x' * M.ε) (g x') →
        NumOutcome (M := M) (f.roundings (a.bound env' n) x' * M.ε) (.ok (.num (Ranged.checked (g x) r)))
          (.ok (.num (g x'))) := by
      intro r g h hr hs
      have h1 : M.normal (g x) := hs _ (h.mono (by linarith))
      exact NumOutcome.num rfl h1 (((hr h1).trans h).mono (by linarith))
    cases f with
    | exp =>
      refine fin (M.exp x) Real.exp ?_ (M.exp_close x) hs
      refine (hx.exp hst).mono ?_
      simp only [Fn.roundings]
      linarith
    | log =>
      by_cases hy : 0 < x'
      · have hx0 : 0 < x := by
          obtain ⟨t, -, e⟩ := hx
          rw [e]; exact mul_pos hy (Real.exp_pos t)
        have c1 : (0 : Ranged M) < .fin x := show ((0 : ℝ) : WithTop ℝ) < (x : WithTop ℝ) from WithTop.coe_lt_coe.2 hx0
        have e3 : Fn.log.call (.num (.fin x) : Val (Ranged M)) = .ok (.num (Ranged.checked (Real.log x) (M.log x))) := by
          simp only [Fn.call, if_pos c1]; rfl
        have e4 : Fn.log.call (.num x' : Val ℝ) = .ok (.num (Real.log x')) := by simp only [Fn.call, if_pos hy]; rfl
        simp only [lift1, e3, e4] at hs ⊢
        refine fin (M.log x) Real.log ?_ (M.log_close x hx0) hs
        simp only [Fn.Stable, runAmount, Val.amount] at hst
        rcases hst.resolve_left (not_le.2 hy) with h0 | hst
        · rw [h0] at hx ⊢
          rw [zero_mul] at hx
          rw [hx.eq_of_zero]
          exact Close.refl (by simp [Fn.roundings]) _
        have hl : Real.log x' ≠ 0 := fun h0 => by
          rcases Real.log_eq_zero.1 h0 with h | h | h
          · linarith
          · exact hst.1 h
          · linarith
        have e : 2 * (a.bound env' n * M.ε) / |Real.log x'| = 2 * a.bound env' n / |Real.log x'| * M.ε := by ring
        refine (hx.log hy hl (by rw [e]; exact hst.2)).mono ?_
        simp only [Fn.roundings]
        linarith
      · have hx0 : ¬ 0 < x := by
          obtain ⟨t, -, e⟩ := hx
          rw [e]
          have := mul_nonpos_of_nonpos_of_nonneg (not_lt.1 hy) (Real.exp_pos t).le
          linarith
        have c1 : ¬ (0 : Ranged M) < .fin x := fun h => hx0 (by
          have : ((0 : ℝ) : WithTop ℝ) < (x : WithTop ℝ) := h
          exact WithTop.coe_lt_coe.1 this)
        simp only [lift1, Fn.call, if_neg c1, if_neg hy]
        rfl
    | sin =>
      refine fin (M.sin x) Real.sin ?_ (M.sin_close x) hs
      simp only [Fn.Stable, runAmount, Val.amount] at hst
      rcases hst with h0 | hst
      · rw [h0] at hx ⊢
        rw [zero_mul] at hx
        rw [hx.eq_of_zero]
        exact Close.refl (by simp [Fn.roundings]) _
      have e : 4 * (a.bound env' n * M.ε) * |x'| / |Real.sin x'| = 4 * a.bound env' n * |x'| / |Real.sin x'| * M.ε := by ring
      refine (hx.sin hst.1 hst.2.1 (by rw [e]; exact hst.2.2)).mono ?_
      simp only [Fn.roundings]
      linarith
    | erf =>
      refine fin (M.erf x) Verif.erf ?_ (M.erf_close x) hs
      refine hx.erf.mono ?_
      simp only [Fn.roundings]
      linarith
    | erfc =>
      refine fin (M.erfc x) (fun x => 1 - Verif.erf x) ?_ (M.erfc_close x) hs
      simp only [Fn.Stable, runAmount, Val.amount] at hst
      have e : 5 * (a.bound env' n * M.ε) * |x'| / (1 - Verif.erf x') = 5 * a.bound env' n * |x'| / (1 - Verif.erf x') * M.ε := by
        ring
      refine (hx.erfc hst.1 (by rw [e]; exact hst.2)).mono ?_
      simp only [Fn.roundings]
      linarith
  | conv a t iha => exact hn.elim

/-- In double precision every exact result between 2⁻¹⁰²¹ and 2¹⁰²² is in range, up to a relative error of one half. -/
theorem C105_double_range {k y : ℝ} (hk : k ≤ 1 / 2) (h : y = 0 ∨ ((2 : ℝ) ^ (-1021 : ℤ) ≤ |y| ∧ |y| ≤ (2 : ℝ) ^ (1022 : ℤ))) :
    binary64.Safe k y := by
  rintro x ⟨t, ht, rfl⟩
  rcases h with rfl | ⟨h1, h2⟩
  · left; simp
  right
  have ht' := abs_le.1 (ht.trans hk)
  have e1 : Real.exp t < 2 := by
    have h3 : Real.exp t ≤ Real.exp (1 / 2) := Real.exp_le_exp.2 ht'.2
    have h4 : Real.exp (1 / 2) * Real.exp (1 / 2) = Real.exp 1 := by rw [← Real.exp_add]; norm_num
    have h5 := Real.exp_one_lt_three
    nlinarith [Real.exp_pos (1 / 2 : ℝ)]
  have e2 : 1 / 2 ≤ Real.exp t := by
    have := Real.add_one_le_exp t
    linarith [ht'.1]
  rw [abs_mul, abs_of_pos (Real.exp_pos t)]
  have e3 : (2 : ℝ) ^ (-1021 : ℤ) = 2 ^ (-1022 : ℤ) * 2 := by
    rw [← zpow_add_one₀ (by norm_num)]; norm_num
  have e4 : (2 : ℝ) ^ (1023 : ℤ) = 2 ^ (1022 : ℤ) * 2 := by
    rw [← zpow_add_one₀ (by norm_num)]; norm_num
  have e5 := half_le_largest
  have e6 : (0 : ℝ) < 2 ^ (1022 : ℤ) := by positivity
  have e7 : (0 : ℝ) < 2 ^ (-1022 : ℤ) := by positivity
  rw [e3] at h1
  rw [e4] at e5
  generalize (2 : ℝ) ^ (1024 : ℤ) - (2 : ℝ) ^ (970 : ℤ) = a at *
  generalize (2 : ℝ) ^ (1022 : ℤ) = b at *
  generalize (2 : ℝ) ^ (-1022 : ℤ) = c at *
  constructor
  · nlinarith
  · nlinarith

theorem binary64_eps : 0 ≤ binary64.ε ∧ binary64.ε ≤ 2⁻¹ ^ 52 := by
  refine ⟨binary64.nonneg, ?_⟩
  have h : Real.log (1 - 2⁻¹ ^ 53) = -Real.log (1 - 2⁻¹ ^ 53)⁻¹ := by rw [Real.log_inv]; ring
  have h1 := Real.log_le_sub_one_of_pos (x := (1 - (2⁻¹ : ℝ) ^ 53)⁻¹) (by norm_num)
  show -Real.log (1 - 2⁻¹ ^ 53) ≤ _
  rw [h, neg_neg]
  refine h1.trans ?_
  norm_num

theorem double_of_moderate {x : ℝ} (h1 : 1 ≤ |x|) (h2 : |x| ≤ 2 ^ (1000 : ℤ)) : DoubleNormal x := by
  right
  constructor
  · have : (2 : ℝ) ^ (-1022 : ℤ) ≤ 1 := zpow_le_one_of_nonpos₀ (by norm_num) (by norm_num)
    exact this.trans h1
  · have : (2 : ℝ) ^ (1000 : ℤ) < 2 ^ (1023 : ℤ) := zpow_lt_zpow_right₀ (by norm_num) (by norm_num)
    exact h2.trans_lt (this.trans_le half_le_largest)

theorem double_of_small {x : ℝ} (h1 : 1 ≤ |x|) (h2 : |x| ≤ 4096) : DoubleNormal x := by
  have : (2 : ℝ) ^ (12 : ℤ) ≤ 2 ^ (1000 : ℤ) := zpow_le_zpow_right₀ (by norm_num) (by norm_num)
  refine double_of_moderate h1 (le_trans ?_ this)
  norm_num
  exact h2

/-- `exp` of moderate arguments overflows (Python raises OverflowError) or underflows, while the exact formula returns a
positive number. -/
theorem C105_exp_lost (s : ℚ) (hs : s = 2000 ∨ s = -2000) (env : ℕ → Val (Ranged binary64)) (env' : ℕ → Val ℝ) :
    (Code.fn .exp (.lit s)).run env = .ok (.num .lost) ∧ (Code.fn .exp (.lit s)).run env' = .ok (.num (Real.exp s)) := by
  refine ⟨?_, rfl⟩
  have habs : |(s : ℝ)| = 2000 := by rcases hs with rfl | rfl <;> norm_num [abs_of_neg]
  have hn : DoubleNormal (s : ℝ) := double_of_small (by rw [habs]; norm_num) (by rw [habs]; norm_num)
  have hr := roundDouble_close hn
  rw [habs] at hr
  have hr' : |roundDouble s - s| ≤ 1 := hr.trans (by norm_num)
  have h1 : (s : Ranged binary64) = .fin (roundDouble s) := Ranged.checked_pos (M := binary64) hn
  have h2 : ¬ DoubleNormal (Real.exp (roundDouble s)) := by
    have two : ∀ m : ℤ, 0 ≤ m → (2 : ℝ) ^ m ≤ Real.exp m := by
      intro m hm
      obtain ⟨k, rfl⟩ := Int.eq_ofNat_of_zero_le hm
      have h2 : (2 : ℝ) ≤ Real.exp 1 := by have := Real.add_one_le_exp (1 : ℝ); linarith
      have := pow_le_pow_left₀ (by norm_num) h2 k
      rw [← Real.exp_nat_mul] at this
      simpa using this
    rintro (h0 | ⟨h3, h4⟩)
    · exact absurd h0 (Real.exp_pos _).ne'
    rw [abs_of_pos (Real.exp_pos _)] at h3 h4
    have hb := abs_le.1 hr'
    rcases hs with rfl | rfl
    · have g1 : Real.exp ((1999 : ℤ) : ℝ) ≤ Real.exp (roundDouble (2000 : ℚ)) := Real.exp_le_exp.2 (by push_cast at hb ⊢; linarith)
      have g2 := two 1999 (by norm_num)
      have g3 : (2 : ℝ) ^ (1024 : ℤ) ≤ 2 ^ (1999 : ℤ) := zpow_le_zpow_right₀ (by norm_num) (by norm_num)
      have g4 : (0 : ℝ) < 2 ^ (970 : ℤ) := by positivity
      generalize (2 : ℝ) ^ (1024 : ℤ) = a at *
      generalize (2 : ℝ) ^ (1999 : ℤ) = b at *
      generalize (2 : ℝ) ^ (970 : ℤ) = c at *
      linarith
    · have g1 : Real.exp (roundDouble (-2000 : ℚ)) ≤ Real.exp (-((1999 : ℤ) : ℝ)) := Real.exp_le_exp.2 (by push_cast at hb ⊢; linarith)
      have g2 := two 1999 (by norm_num)
      rw [Real.exp_neg] at g1
      have g3 : (Real.exp ((1999 : ℤ) : ℝ))⁻¹ ≤ ((2 : ℝ) ^ (1999 : ℤ))⁻¹ := inv_anti₀ (by positivity) g2
      rw [← zpow_neg] at g3
      have g4 : (2 : ℝ) ^ (-1999 : ℤ) < 2 ^ (-1022 : ℤ) := zpow_lt_zpow_right₀ (by norm_num) (by norm_num)
      generalize (2 : ℝ) ^ (-1022 : ℤ) = a at *
      generalize (2 : ℝ) ^ (-1999 : ℤ) = b at *
      exact absurd (h3.trans (g1.trans g3)) (not_le.2 g4)
  simp only [Code.run, pnum, lift1, Fn.call, h1]
  exact congrArg (fun z => Except.ok (Val.num z)) (Ranged.checked_neg (M := binary64) h2)

/-- The hypotheses hold: `3 * 5` in double precision. -/
example (env : ℕ → Val (Ranged binary64)) (env' : ℕ → Val ℝ) (n : ℕ → ℝ)
    (henv : ∀ i, ∃ a b, env i = .num (.fin a) ∧ env' i = .num b ∧ Close (n i * binary64.ε) a b) :
    NumOutcome (4 * binary64.ε) ((Code.mul (.lit 3) (.lit 5)).run env) (.ok (.num 15)) := by
  have h := C105_numbers env env' n henv (.mul (.lit 3) (.lit 5)) ⟨trivial, trivial⟩ ⟨trivial, trivial⟩
    ⟨double_of_small (by norm_num) (by norm_num), double_of_small (by norm_num) (by norm_num), ?_⟩
  · have e : (Code.mul (.lit 3) (.lit 5)).run env' = .ok (.num 15) := by
      show Except.ok (Val.num (((3 : ℚ) : ℝ) * ((5 : ℚ) : ℝ))) = _
      norm_num
    have e' : (Code.mul (.lit 3) (.lit 5)).bound env' n = 4 := by
      norm_num [Code.bound, Code.run, pnum, runRoundings, Val.roundings]
    rw [e, e'] at h
    exact h
  · have e : runAmount ((Code.mul (.lit 3) (.lit 5)).run env') = 15 := by
      show ((3 : ℚ) : ℝ) * ((5 : ℚ) : ℝ) = _
      norm_num
    have e' : (Code.mul (.lit 3) (.lit 5)).bound env' n = 4 := by
      norm_num [Code.bound, Code.run, pnum, runRoundings, Val.roundings]
    rw [e, e']
    obtain ⟨-, h2⟩ := binary64_eps
    refine C105_double_range (by norm_num at h2 ⊢; linarith) (Or.inr ⟨?_, ?_⟩)
    · have : (2 : ℝ) ^ (-1021 : ℤ) ≤ 1 := zpow_le_one_of_nonpos₀ (by norm_num) (by norm_num)
      refine this.trans ?_
      norm_num
    · have : (2 : ℝ) ^ (4 : ℤ) ≤ 2 ^ (1022 : ℤ) := zpow_le_zpow_right₀ (by norm_num) (by norm_num)
      refine le_trans ?_ this
      norm_num

/-- With units: `3 m * 2 m` loses nothing. -/
example (env : ℕ → Val (Ranged binary64)) (h0 : env 0 = .unit ⟨.length, .fin 3, c!"m", 1⟩)
    (h1 : env 1 = .unit ⟨.length, .fin 2, c!"m", 1⟩) :
    ∃ v, (Code.mul (.var 0) (.var 1)).run env = .ok v ∧ v.Kept := by
  refine ⟨.unit ⟨.length, .fin (roundDouble (3 * 2)), c!"m", 2⟩, ?_, by simp [Val.Kept]⟩
  have e : (.fin 3 * .fin 2 : Ranged binary64) = .fin (roundDouble (3 * 2)) :=
    Ranged.checked_pos (M := binary64) (show DoubleNormal (3 * 2) from double_of_small (by norm_num) (by norm_num))
  simp only [Code.run, h0, h1, ok_mul, Val.mul, unitMul, and_self, if_true, mkUnit, e]
  norm_num [wrapUnit]

end Verif
