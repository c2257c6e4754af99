import Verif.Props.Ranged
import Mathlib.Analysis.SpecialFunctions.Pow.Real

/-!
# C105: inputs for which nothing overflows

`C105_numbers` asks for the range of every exact intermediate result.  For sums, products, quotients and powers of positive
numbers the range follows from the inputs: with every number of the formula between 2⁻ᵃ and 2ᵃ the result is between 2⁻ʰ and
2ʰ, where `h` is read off the formula; nothing is lost in double precision while `h` is at most 1021.  In particular (without
powers) `L` numbers between 2⁻ᵃ and 2ᵃ are safe in any formula as long as `L * a ≤ 1021`.
-/

namespace Verif

/-- A formula that adds, multiplies, divides and raises to powers positive numbers. -/
def Code.Positive : Code → Prop
  | .var _ => True
  | .lit q => 0 < q
  | .pi => True
  | .mul a b => a.Positive ∧ b.Positive
  | .div a b => a.Positive ∧ b.Positive
  | .add a b => a.Positive ∧ b.Positive
  | .pow a _ => a.Positive
  | _ => False

/-- The numbers written in the formula are between `2 ^ (-k)` and `2 ^ k`. -/
def Code.Within (k : ℝ) : Code → Prop
  | .lit q => (2 : ℝ) ^ (-k) ≤ q ∧ (q : ℝ) ≤ 2 ^ k
  | .mul a b => a.Within k ∧ b.Within k
  | .div a b => a.Within k ∧ b.Within k
  | .add a b => a.Within k ∧ b.Within k
  | .pow a _ => a.Within k
  | _ => True

/-- The binary order of magnitude of the result, for inputs of order at most `k`. -/
noncomputable def Code.height (k : ℝ) : Code → ℝ
  | .var _ => k
  | .lit _ => k
  | .pi => 2
  | .mul a b => a.height k + b.height k
  | .div a b => a.height k + b.height k
  | .add a b => max (a.height k) (b.height k) + 1
  | .pow a q => |(q : ℝ)| * a.height k
  | _ => 0

/-- Rounding errors of the result, for inputs that carry `N`. -/
noncomputable def Code.rounds (N : ℝ) : Code → ℝ
  | .var _ => N
  | .lit _ => 1
  | .pi => 1
  | .mul a b => a.rounds N + b.rounds N + 2
  | .div a b => a.rounds N + b.rounds N + 2
  | .add a b => max (a.rounds N) (b.rounds N) + 1
  | .pow a q => |(q : ℝ)| * a.rounds N + 1
  | _ => 0

/-- Every operation has a result of order at most 1021 and fewer than 2⁵¹ rounding errors. -/
def Code.Moderate (k N : ℝ) : Code → Prop
  | .mul a b => a.Moderate k N ∧ b.Moderate k N ∧ (Code.mul a b).height k ≤ 1021 ∧ (Code.mul a b).rounds N ≤ 2 ^ 51
  | .div a b => a.Moderate k N ∧ b.Moderate k N ∧ (Code.div a b).height k ≤ 1021 ∧ (Code.div a b).rounds N ≤ 2 ^ 51
  | .add a b => a.Moderate k N ∧ b.Moderate k N ∧ (Code.add a b).height k ≤ 1021 ∧ (Code.add a b).rounds N ≤ 2 ^ 51
  | .pow a q => a.Moderate k N ∧ (Code.pow a q).height k ≤ 1021 ∧ (Code.pow a q).rounds N ≤ 2 ^ 51
  | _ => True

/-- `y` has binary order of magnitude at most `h`. -/
def OfOrder (h y : ℝ) : Prop := (2 : ℝ) ^ (-h) ≤ y ∧ y ≤ 2 ^ h

theorem OfOrder.pos {h y : ℝ} (H : OfOrder h y) : 0 < y := lt_of_lt_of_le (Real.rpow_pos_of_pos (by norm_num) _) H.1

theorem OfOrder.mul {g h x y : ℝ} (H : OfOrder g x) (H' : OfOrder h y) : OfOrder (g + h) (x * y) := by
  constructor
  · rw [neg_add, Real.rpow_add (by norm_num)]
    exact mul_le_mul H.1 H'.1 (Real.rpow_nonneg (by norm_num) _) H.pos.le
  · rw [Real.rpow_add (by norm_num)]
    exact mul_le_mul H.2 H'.2 H'.pos.le (Real.rpow_nonneg (by norm_num) _)

theorem OfOrder.inv {h y : ℝ} (H : OfOrder h y) : OfOrder h y⁻¹ := by
  have hy := H.pos
  have h1 : (0 : ℝ) < 2 ^ h := Real.rpow_pos_of_pos (by norm_num) _
  have h2 : (0 : ℝ) < 2 ^ (-h) := Real.rpow_pos_of_pos (by norm_num) _
  constructor
  · rw [Real.rpow_neg (by norm_num)]
    exact inv_anti₀ hy H.2
  · have := inv_anti₀ h2 H.1
    rwa [← Real.rpow_neg (by norm_num), neg_neg] at this

theorem OfOrder.div {g h x y : ℝ} (H : OfOrder g x) (H' : OfOrder h y) : OfOrder (g + h) (x / y) := by
  rw [div_eq_mul_inv]
  exact H.mul H'.inv

theorem OfOrder.mono {g h y : ℝ} (H : OfOrder g y) (hg : g ≤ h) : OfOrder h y :=
  ⟨le_trans (Real.rpow_le_rpow_of_exponent_le (by norm_num) (by linarith)) H.1,
    H.2.trans (Real.rpow_le_rpow_of_exponent_le (by norm_num) hg)⟩

theorem OfOrder.add {g h x y : ℝ} (H : OfOrder g x) (H' : OfOrder h y) : OfOrder (max g h + 1) (x + y) := by
  have h1 := H.mono (le_max_left g h)
  have h2 := H'.mono (le_max_right g h)
  constructor
  · have := Real.rpow_le_rpow_of_exponent_le (x := (2 : ℝ)) (by norm_num) (show -(max g h + 1) ≤ -max g h by linarith)
    linarith [h1.1, h2.pos]
  · rw [Real.rpow_add (by norm_num), Real.rpow_one]
    linarith [h1.2, h2.2]

theorem OfOrder.pow_nonneg {h y q : ℝ} (H : OfOrder h y) (hq : 0 ≤ q) : OfOrder (q * h) (y ^ q) := by
  constructor
  · have := Real.rpow_le_rpow (Real.rpow_nonneg (by norm_num) _) H.1 hq
    rwa [← Real.rpow_mul (by norm_num), show -h * q = -(q * h) by ring] at this
  · have := Real.rpow_le_rpow H.pos.le H.2 hq
    rwa [← Real.rpow_mul (by norm_num), mul_comm] at this

theorem OfOrder.pow {h y : ℝ} (H : OfOrder h y) (q : ℝ) : OfOrder (|q| * h) (y ^ q) := by
  rcases le_total 0 q with hq | hq
  · rw [abs_of_nonneg hq]
    exact H.pow_nonneg hq
  · rw [abs_of_nonpos hq, ← neg_neg q, Real.rpow_neg H.pos.le, neg_neg]
    exact (H.pow_nonneg (neg_nonneg.2 hq)).inv

theorem OfOrder.safe {h y r : ℝ} (H : OfOrder h y) (hh : h ≤ 1021) (hr : r ≤ 2 ^ 51) : binary64.Safe (r * binary64.ε) y := by
  obtain ⟨e1, e2⟩ := binary64_eps
  refine C105_double_range ?_ (Or.inr ?_)
  · have : r * binary64.ε ≤ 2 ^ 51 * 2⁻¹ ^ 52 := mul_le_mul hr e2 e1 (by positivity)
    refine this.trans (by norm_num)
  · have H' := H.mono hh
    rw [abs_of_pos H.pos]
    constructor
    · have := H'.1
      rw [show (-1021 : ℝ) = ((-1021 : ℤ) : ℝ) by norm_num, Real.rpow_intCast] at this
      exact this
    · have := H'.2
      rw [show (1021 : ℝ) = ((1021 : ℤ) : ℝ) by norm_num, Real.rpow_intCast] at this
      exact this.trans (zpow_le_zpow_right₀ (by norm_num) (by norm_num))

theorem pi_order : OfOrder 2 Real.pi := by
  constructor
  · have := Real.rpow_le_rpow_of_exponent_le (x := (2 : ℝ)) (by norm_num) (show (-2 : ℝ) ≤ 0 by norm_num)
    rw [Real.rpow_zero] at this
    linarith [Real.pi_gt_three]
  · have : (2 : ℝ) ^ (2 : ℝ) = 4 := by norm_num
    rw [this]
    exact Real.pi_le_four

/-- What is known of the exact run. -/
structure ExactRun (env : ℕ → Val ℝ) (k N : ℝ) (c : Code) (y : ℝ) : Prop where
  run : c.run env = .ok (.num y)
  order : OfOrder (c.height k) y
  bound : c.bound env (fun _ => N) = c.rounds N
  stable : c.Stable binary64.ε env (fun _ => N)
  inRange : c.InRange binary64 env (fun _ => N)
  numeric : c.Numeric

theorem exactRun {k N : ℝ} (hk : k ≤ 1021) (env : ℕ → Val ℝ) (henv : ∀ i, ∃ b, env i = .num b ∧ OfOrder k b) (c : Code)
    (hp : c.Positive) (hw : c.Within k) (hm : c.Moderate k N) : ∃ y, ExactRun env k N c y := by
  induction c with
  | var i =>
    obtain ⟨b, h1, h2⟩ := henv i
    exact ⟨b, by simp [Code.run, h1], h2, rfl, trivial, trivial, trivial⟩
  | lit q =>
    have ho : OfOrder k (q : ℝ) := hw
    refine ⟨q, rfl, ho, rfl, trivial, ?_, trivial⟩
    exact ho.safe (r := 0) hk (by norm_num) q (by rw [zero_mul]; exact Close.refl le_rfl _)
  | pi => exact ⟨Real.pi, rfl, pi_order, rfl, trivial, trivial, trivial⟩
  | const cl q u => exact hp.elim
  | mul a b iha ihb =>
    obtain ⟨x, hx⟩ := iha hp.1 hw.1 hm.1
    obtain ⟨y, hy⟩ := ihb hp.2 hw.2 hm.2.1
    have e : (Code.mul a b).run env = .ok (.num (x * y)) := by simp only [Code.run, hx.run, hy.run]; rfl
    have eb : (Code.mul a b).bound env (fun _ => N) = (Code.mul a b).rounds N := by
      simp only [Code.bound, Code.rounds, hx.bound, hy.bound, hx.run, hy.run, runRoundings, Val.roundings, add_zero]
    have ho : OfOrder ((Code.mul a b).height k) (x * y) := hx.order.mul hy.order
    refine ⟨x * y, e, ho, eb, ⟨hx.stable, hy.stable⟩, ⟨hx.inRange, hy.inRange, ?_⟩, hx.numeric, hy.numeric⟩
    rw [eb, e]
    exact ho.safe hm.2.2.1 hm.2.2.2
  | div a b iha ihb =>
    obtain ⟨x, hx⟩ := iha hp.1 hw.1 hm.1
    obtain ⟨y, hy⟩ := ihb hp.2 hw.2 hm.2.1
    have hy0 : ¬ y = 0 := hy.order.pos.ne'
    have e : (Code.div a b).run env = .ok (.num (x / y)) := by
      simp only [Code.run, hx.run, hy.run]
      show Val.div (.num x) (.num y) = _
      simp [Val.div, pyDiv, hy0]
    have eb : (Code.div a b).bound env (fun _ => N) = (Code.div a b).rounds N := by
      simp only [Code.bound, Code.rounds, hx.bound, hy.bound, hx.run, hy.run, runRoundings, Val.roundings, add_zero]
    have ho : OfOrder ((Code.div a b).height k) (x / y) := hx.order.div hy.order
    refine ⟨x / y, e, ho, eb, ⟨hx.stable, hy.stable⟩, ⟨hx.inRange, hy.inRange, ?_⟩, hx.numeric, hy.numeric⟩
    rw [eb, e]
    exact ho.safe hm.2.2.1 hm.2.2.2
  | add a b iha ihb =>
    obtain ⟨x, hx⟩ := iha hp.1 hw.1 hm.1
    obtain ⟨y, hy⟩ := ihb hp.2 hw.2 hm.2.1
    have hxy : 0 ≤ x * y := (mul_pos hx.order.pos hy.order.pos).le
    have e : (Code.add a b).run env = .ok (.num (x + y)) := by simp only [Code.run, hx.run, hy.run]; rfl
    have ex : runAmount (a.run env) = x := by rw [hx.run]; rfl
    have ey : runAmount (b.run env) = y := by rw [hy.run]; rfl
    have eb : (Code.add a b).bound env (fun _ => N) = (Code.add a b).rounds N := by
      simp only [Code.bound, Code.rounds, hx.bound, hy.bound, ex, ey, sumRoundings, if_pos hxy]
    have ho : OfOrder ((Code.add a b).height k) (x + y) := hx.order.add hy.order
    refine ⟨x + y, e, ho, eb, ⟨hx.stable, hy.stable, Or.inl (by rw [ex, ey]; exact hxy)⟩,
      ⟨hx.inRange, hy.inRange, ?_⟩, hx.numeric, hy.numeric⟩
    rw [eb, e]
    exact ho.safe hm.2.2.1 hm.2.2.2
  | sub a b _ _ => exact hp.elim
  | neg a _ => exact hp.elim
  | pow a q iha =>
    obtain ⟨x, hx⟩ := iha hp hw hm.1
    have e : (Code.pow a q).run env = .ok (.num (x ^ (q : ℝ))) := by
      simp only [Code.run, hx.run]
      show Val.pow (.num x) q = _
      simp [Val.pow, pow_real_pos hx.order.pos]
    have eb : (Code.pow a q).bound env (fun _ => N) = (Code.pow a q).rounds N := by
      simp only [Code.bound, Code.rounds, hx.bound]
    have ho : OfOrder ((Code.pow a q).height k) (x ^ (q : ℝ)) := hx.order.pow q
    refine ⟨x ^ (q : ℝ), e, ho, eb, hx.stable, ⟨hx.inRange, ?_⟩, hx.numeric⟩
    rw [eb, e]
    exact ho.safe hm.2.1 hm.2.2
  | fn f a _ => exact hp.elim
  | conv a t _ => exact hp.elim

/-- Positive numbers between 2⁻ᵏ and 2ᵏ: while the order of magnitude read off the formula stays within 1021, double precision
returns a finite number, as accurate as the rounding errors counted in the formula, and of the order of magnitude read off. -/
theorem C105_inputs {k N : ℝ} (hk : k ≤ 1021) (env : ℕ → Val (Ranged binary64)) (env' : ℕ → Val ℝ)
    (henv : ∀ i, ∃ a b, env i = .num (.fin a) ∧ env' i = .num b ∧ Close (N * binary64.ε) a b ∧
      (2 : ℝ) ^ (-k) ≤ b ∧ b ≤ 2 ^ k) (c : Code) (hp : c.Positive) (hw : c.Within k) (hm : c.Moderate k N) :
    ∃ x y, c.run env = .ok (.num (.fin x)) ∧ c.run env' = .ok (.num y) ∧ Close (c.rounds N * binary64.ε) x y ∧
      (2 : ℝ) ^ (-c.height k) ≤ y ∧ y ≤ 2 ^ c.height k := by
  obtain ⟨y, hy⟩ := exactRun hk env' (fun i => by
    obtain ⟨a, b, -, h2, -, h4⟩ := henv i
    exact ⟨b, h2, h4⟩) c hp hw hm
  have h := C105_numbers env env' (fun _ => N) (fun i => by
    obtain ⟨a, b, h1, h2, h3, -⟩ := henv i
    exact ⟨a, b, h1, h2, h3⟩) c hy.numeric hy.stable hy.inRange
  rw [hy.bound, hy.run] at h
  rcases SameOutcome.elim h with ⟨e, -, e2⟩ | ⟨v, w, e1, e2, x, y', rfl, rfl, hc⟩
  · cases e2
  · cases e2
    exact ⟨x, y, e1, hy.run, hc, hy.order⟩

/-! ## Counting the numbers of a formula -/

/-- Numbers in a formula of sums, products and quotients. -/
def Code.leaves : Code → ℕ
  | .mul a b => a.leaves + b.leaves
  | .div a b => a.leaves + b.leaves
  | .add a b => a.leaves + b.leaves
  | _ => 1

/-- No powers. -/
def Code.Powerless : Code → Prop
  | .mul a b => a.Powerless ∧ b.Powerless
  | .div a b => a.Powerless ∧ b.Powerless
  | .add a b => a.Powerless ∧ b.Powerless
  | .pow _ _ => False
  | _ => True

theorem Code.leaves_pos (c : Code) : 1 ≤ c.leaves := by
  induction c <;> simp only [Code.leaves] <;> omega

theorem Code.leaves_spec {k : ℝ} (hk : 2 ≤ k) (c : Code) (hp : c.Positive) (hl : c.Powerless) :
    2 ≤ c.height k ∧ c.height k ≤ c.leaves * k ∧ 1 ≤ c.rounds 1 ∧ c.rounds 1 ≤ 3 * c.leaves - 2 := by
  induction c with
  | var i => norm_num [Code.height, Code.leaves, Code.rounds, hk]
  | lit q => norm_num [Code.height, Code.leaves, Code.rounds, hk]
  | pi => norm_num [Code.height, Code.leaves, Code.rounds, hk]
  | mul a b iha ihb =>
    obtain ⟨a1, a2, a3, a4⟩ := iha hp.1 hl.1
    obtain ⟨b1, b2, b3, b4⟩ := ihb hp.2 hl.2
    simp only [Code.height, Code.leaves, Code.rounds, Nat.cast_add]
    refine ⟨?_, ?_, ?_, ?_⟩ <;> linarith
  | div a b iha ihb =>
    obtain ⟨a1, a2, a3, a4⟩ := iha hp.1 hl.1
    obtain ⟨b1, b2, b3, b4⟩ := ihb hp.2 hl.2
    simp only [Code.height, Code.leaves, Code.rounds, Nat.cast_add]
    refine ⟨?_, ?_, ?_, ?_⟩ <;> linarith
  | add a b iha ihb =>
    obtain ⟨a1, a2, a3, a4⟩ := iha hp.1 hl.1
    obtain ⟨b1, b2, b3, b4⟩ := ihb hp.2 hl.2
    simp only [Code.height, Code.leaves, Code.rounds, Nat.cast_add]
    refine ⟨?_, ?_, ?_, ?_⟩
    · linarith [le_max_left (a.height k) (b.height k)]
    · rcases max_cases (a.height k) (b.height k) with h | h <;> rw [h.1] <;> linarith
    · linarith [le_max_left (a.rounds 1) (b.rounds 1)]
    · rcases max_cases (a.rounds 1) (b.rounds 1) with h | h <;> rw [h.1] <;> linarith
  | pow a q _ => exact hl.elim
  | const _ _ _ => exact hp.elim
  | sub _ _ _ _ => exact hp.elim
  | neg _ _ => exact hp.elim
  | fn _ _ _ => exact hp.elim
  | conv _ _ _ => exact hp.elim

theorem Code.moderate_of_leaves {k : ℝ} (hk : 2 ≤ k) (c : Code) (hp : c.Positive) (hl : c.Powerless)
    (h : c.leaves * k ≤ 1021) : c.Moderate k 1 := by
  have key : ∀ c : Code, c.Positive → c.Powerless → (c.leaves : ℝ) * k ≤ 1021 → c.height k ≤ 1021 ∧ c.rounds 1 ≤ 2 ^ 51 := by
    intro c hp hl h
    obtain ⟨-, c2, -, c4⟩ := c.leaves_spec hk hp hl
    have h0 : (1 : ℝ) ≤ c.leaves := by exact_mod_cast c.leaves_pos
    have h1 : (c.leaves : ℝ) * 2 ≤ c.leaves * k := mul_le_mul_of_nonneg_left hk (by linarith)
    exact ⟨c2.trans h, by norm_num; linarith⟩
  have split : ∀ a b : Code, ((a.leaves + b.leaves : ℕ) : ℝ) * k ≤ 1021 →
      (a.leaves : ℝ) * k ≤ 1021 ∧ (b.leaves : ℝ) * k ≤ 1021 := by
    intro a b h
    have h1 : 0 ≤ (a.leaves : ℝ) * k := by positivity
    have h2 : 0 ≤ (b.leaves : ℝ) * k := by positivity
    push_cast at h
    constructor <;> linarith
  induction c with
  | mul a b iha ihb =>
    obtain ⟨s1, s2⟩ := split a b h
    exact ⟨iha hp.1 hl.1 s1, ihb hp.2 hl.2 s2, key _ hp hl h⟩
  | div a b iha ihb =>
    obtain ⟨s1, s2⟩ := split a b h
    exact ⟨iha hp.1 hl.1 s1, ihb hp.2 hl.2 s2, key _ hp hl h⟩
  | add a b iha ihb =>
    obtain ⟨s1, s2⟩ := split a b h
    exact ⟨iha hp.1 hl.1 s1, ihb hp.2 hl.2 s2, key _ hp hl h⟩
  | pow a q _ => exact hl.elim
  | _ => trivial

/-- Sums, products and quotients of `L` positive doubles (or literals, or π) between 2⁻ᵏ and 2ᵏ, each accurate to one rounding:
if `L * k ≤ 1021` double precision returns a finite number accurate to `3 L - 2` roundings, however the formula is written. -/
theorem C105_leaves {k : ℝ} (hk : 2 ≤ k) (env : ℕ → Val (Ranged binary64)) (env' : ℕ → Val ℝ)
    (henv : ∀ i, ∃ a b, env i = .num (.fin a) ∧ env' i = .num b ∧ Close binary64.ε a b ∧ (2 : ℝ) ^ (-k) ≤ b ∧ b ≤ 2 ^ k)
    (c : Code) (hp : c.Positive) (hl : c.Powerless) (hw : c.Within k) (h : c.leaves * k ≤ 1021) :
    ∃ x y, c.run env = .ok (.num (.fin x)) ∧ c.run env' = .ok (.num y) ∧ 0 < y ∧
      Close ((3 * c.leaves - 2) * binary64.ε) x y := by
  have h0 : (1 : ℝ) ≤ c.leaves := by exact_mod_cast c.leaves_pos
  have hk' : k ≤ 1021 := by nlinarith
  obtain ⟨x, y, h1, h2, h3, h4⟩ := C105_inputs (N := 1) hk' env env' (by simpa using henv) c hp hw
    (c.moderate_of_leaves hk hp hl h)
  refine ⟨x, y, h1, h2, (show OfOrder _ y from h4).pos, h3.mono ?_⟩
  exact mul_le_mul_of_nonneg_right (c.leaves_spec hk hp hl).2.2.2 binary64.nonneg

/-- `(a * b + 7) / (a + c)` with numbers of at most three digits. -/
example (env : ℕ → Val (Ranged binary64)) (env' : ℕ → Val ℝ) (henv : ∀ i, ∃ a b, env i = .num (.fin a) ∧ env' i = .num b ∧
    Close binary64.ε a b ∧ 1 / 1000 ≤ b ∧ b ≤ 1000) : ∃ x y,
    (Code.div (.add (.mul (.var 0) (.var 1)) (.lit 7)) (.add (.var 0) (.var 2))).run env = .ok (.num (.fin x)) ∧
    (Code.div (.add (.mul (.var 0) (.var 1)) (.lit 7)) (.add (.var 0) (.var 2))).run env' = .ok (.num y) ∧ 0 < y ∧
    Close (13 * binary64.ε) x y := by
  have e1 : (2 : ℝ) ^ (10 : ℝ) = 1024 := by norm_num
  have e2 : (2 : ℝ) ^ (-10 : ℝ) = 1 / 1024 := by rw [Real.rpow_neg (by norm_num), e1]; norm_num
  have h := C105_leaves (k := 10) (by norm_num) env env' (fun i => by
    obtain ⟨a, b, h1, h2, h3, h4, h5⟩ := henv i
    exact ⟨a, b, h1, h2, h3, by rw [e2]; linarith, by rw [e1]; linarith⟩)
    (.div (.add (.mul (.var 0) (.var 1)) (.lit 7)) (.add (.var 0) (.var 2)))
    (by norm_num [Code.Positive]) (by simp [Code.Powerless])
    (by simp only [Code.Within, e1, e2]; norm_num) (by norm_num [Code.leaves])
  norm_num [Code.leaves] at h ⊢
  exact h

end Verif
