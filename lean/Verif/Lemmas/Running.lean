import Verif.Lemmas.FloatOps
import Mathlib.Data.Set.Basic

/-!
# Running error bounds

A number known up to a relative error of a bound on its size, so that subtractions can be followed too; and iterations that
are disturbed in every step.
-/

namespace Verif

/-- `x` approximates `y`, and `M` bounds `|y|`; the error is `e^κ - 1` relative to `M`. -/
def Within (κ M x y : ℝ) : Prop := |y| ≤ M ∧ |x - y| ≤ (Real.exp κ - 1) * M

namespace Within

variable {κ κ' l M M' x y x' y' : ℝ}

theorem exp_sub_nonneg (hκ : 0 ≤ κ) : 0 ≤ Real.exp κ - 1 := by linarith [Real.add_one_le_exp κ]

theorem of_close (h : Close κ x y) (hM : |y| ≤ M) : Within κ M x y :=
  ⟨hM, h.abs_sub_le.trans (mul_le_mul_of_nonneg_left hM (exp_sub_nonneg h.nonneg))⟩

theorem exact (hκ : 0 ≤ κ) (hM : |x| ≤ M) : Within κ M x x := of_close (Close.refl hκ x) hM

theorem mono (h : Within κ M x y) (hκ : κ ≤ l) : Within l M x y :=
  ⟨h.1, h.2.trans (mul_le_mul_of_nonneg_right (by linarith [Real.exp_le_exp.2 hκ]) ((abs_nonneg y).trans h.1))⟩

theorem weaken (hκ : 0 ≤ κ) (h : Within κ M x y) (hM : M ≤ M') : Within κ M' x y :=
  ⟨h.1.trans hM, h.2.trans (mul_le_mul_of_nonneg_left hM (exp_sub_nonneg hκ))⟩

theorem size (h : Within κ M x y) : |x| ≤ Real.exp κ * M := by
  have := abs_sub_abs_le_abs_sub x y
  linarith [h.1, h.2]

theorem neg (h : Within κ M x y) : Within κ M (-x) (-y) := by
  refine ⟨by rw [abs_neg]; exact h.1, ?_⟩
  rw [show -x - -y = -(x - y) by ring, abs_neg]
  exact h.2

theorem add (h : Within κ M x y) (h' : Within κ M' x' y') : Within κ (M + M') (x + x') (y + y') := by
  refine ⟨(abs_add_le _ _).trans (add_le_add h.1 h'.1), ?_⟩
  rw [show x + x' - (y + y') = (x - y) + (x' - y') by ring, mul_add]
  exact (abs_add_le _ _).trans (add_le_add h.2 h'.2)

theorem sub (h : Within κ M x y) (h' : Within κ M' x' y') : Within κ (M + M') (x - x') (y - y') := by
  simpa only [sub_eq_add_neg] using h.add h'.neg

theorem mul (h : Within κ M x y) (h' : Within κ' M' x' y') : Within (κ + κ') (M * M') (x * x') (y * y') := by
  have hM := (abs_nonneg y).trans h.1
  have hM' := (abs_nonneg y').trans h'.1
  refine ⟨by rw [abs_mul]; exact mul_le_mul h.1 h'.1 (abs_nonneg _) hM, ?_⟩
  rw [show x * x' - y * y' = (x - y) * x' + y * (x' - y') by ring, Real.exp_add]
  have h1 : |(x - y) * x'| ≤ (Real.exp κ - 1) * M * (Real.exp κ' * M') := by
    rw [abs_mul]
    exact mul_le_mul h.2 h'.size (abs_nonneg _) ((abs_nonneg _).trans h.2)
  have h2 : |y * (x' - y')| ≤ M * ((Real.exp κ' - 1) * M') := by
    rw [abs_mul]
    exact mul_le_mul h.1 h'.2 (abs_nonneg _) hM
  refine (abs_add_le _ _).trans ((add_le_add h1 h2).trans (le_of_eq ?_))
  ring

/-- One more rounding. -/
theorem round (h : Within κ M x y) (hr : Close l x' x) : Within (κ + l) M x' y := by
  obtain ⟨t, ht, rfl⟩ := hr
  have h1 : Within l 1 (Real.exp t) 1 := of_close ⟨t, ht, by simp⟩ (by simp)
  simpa using h.mul h1

theorem pow_two (h : Within κ M x y) : Within (2 * κ) (M ^ 2) (x ^ 2) (y ^ 2) := by
  simpa [two_mul, sq] using h.mul h

variable {A : FloatArith}

theorem fl_add (h : Within κ M x y) (h' : Within κ M' x' y') : Within (κ + A.ε) (M + M') (A.add x x') (y + y') :=
  (h.add h').round (A.add_close x x')

theorem fl_sub (h : Within κ M x y) (h' : Within κ M' x' y') : Within (κ + A.ε) (M + M') (A.sub x x') (y - y') :=
  (h.sub h').round (A.sub_close x x')

theorem fl_mul (h : Within κ M x y) (h' : Within κ' M' x' y') : Within (κ + κ' + A.ε) (M * M') (A.mul x x') (y * y') :=
  (h.mul h').round (A.mul_close x x')

/-- Division by a number known up to a relative error. -/
theorem fl_div (h : Within κ M x y) (h' : Close κ' x' y') (h0 : y' ≠ 0) :
    Within (κ + κ' + A.ε) (M / |y'|) (A.div x x') (y / y') := by
  have h1 : Within κ' |y'|⁻¹ x'⁻¹ y'⁻¹ := of_close h'.inv (by rw [abs_inv])
  have := (h.mul h1).round (A.div_close x x' (fun h => h0 (h'.eq_zero_iff.1 h)))
  simpa only [div_eq_mul_inv] using this

end Within

/-- An iteration of a contraction that is disturbed by at most `δ` in every step stays within `δ / (1 - L)` of the fixed point,
up to the contribution of the starting point, which dies out. -/
theorem iterate_disturbed {F : ℝ → ℝ} {S : Set ℝ} {L δ Z : ℝ} {z : ℕ → ℝ} (hL0 : 0 ≤ L) (hL : L < 1) (hδ : 0 ≤ δ)
    (h0 : z 0 ∈ S) (hstep : ∀ n, z n ∈ S → |z (n + 1) - F (z n)| ≤ δ)
    (hstay : ∀ y ∈ S, ∀ w, |w - F y| ≤ δ → w ∈ S) (hnear : ∀ y ∈ S, |F y - Z| ≤ L * |y - Z|) (n : ℕ) :
    z n ∈ S ∧ |z n - Z| ≤ L ^ n * |z 0 - Z| + δ / (1 - L) := by
  have h1 : 0 < 1 - L := by linarith
  induction n with
  | zero => exact ⟨h0, by have : 0 ≤ δ / (1 - L) := by positivity
                          simpa using this⟩
  | succ n ih =>
    obtain ⟨i1, i2⟩ := ih
    refine ⟨hstay _ i1 _ (hstep n i1), ?_⟩
    have e : δ / (1 - L) = δ + L * (δ / (1 - L)) := by field_simp; ring
    calc |z (n + 1) - Z| = |(z (n + 1) - F (z n)) + (F (z n) - Z)| := by ring_nf
      _ ≤ δ + L * (L ^ n * |z 0 - Z| + δ / (1 - L)) :=
        (abs_add_le _ _).trans (add_le_add (hstep n i1) ((hnear _ i1).trans (mul_le_mul_of_nonneg_left i2 hL0)))
      _ = L ^ (n + 1) * |z 0 - Z| + (δ + L * (δ / (1 - L))) := by ring
      _ = _ := by rw [← e]

end Verif
