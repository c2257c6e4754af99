import Verif.Units.Float

/-! # Relative precision -/

namespace Verif

namespace Close

theorem refl {k : ℝ} (hk : 0 ≤ k) (x : ℝ) : Close k x x := ⟨0, by simpa using hk, by simp⟩

theorem mono {k l x y : ℝ} (h : Close k x y) (hl : k ≤ l) : Close l x y := by
  obtain ⟨t, ht, e⟩ := h
  exact ⟨t, ht.trans hl, e⟩

theorem nonneg {k x y : ℝ} (h : Close k x y) : 0 ≤ k := by
  obtain ⟨t, ht, -⟩ := h
  exact (abs_nonneg t).trans ht

theorem symm {k x y : ℝ} (h : Close k x y) : Close k y x := by
  obtain ⟨t, ht, rfl⟩ := h
  exact ⟨-t, by simpa using ht, by rw [mul_assoc, ← Real.exp_add]; simp⟩

theorem trans {k l x y z : ℝ} (h : Close k x y) (h' : Close l y z) : Close (k + l) x z := by
  obtain ⟨t, ht, rfl⟩ := h
  obtain ⟨s, hs, rfl⟩ := h'
  exact ⟨s + t, (abs_add_le s t).trans (by linarith), by rw [mul_assoc, ← Real.exp_add]⟩

theorem mul {k l x y x' y' : ℝ} (h : Close k x y) (h' : Close l x' y') : Close (k + l) (x * x') (y * y') := by
  obtain ⟨t, ht, rfl⟩ := h
  obtain ⟨s, hs, rfl⟩ := h'
  exact ⟨t + s, (abs_add_le t s).trans (by linarith), by rw [Real.exp_add]; ring⟩

theorem inv {k x y : ℝ} (h : Close k x y) : Close k x⁻¹ y⁻¹ := by
  obtain ⟨t, ht, rfl⟩ := h
  exact ⟨-t, by simpa using ht, by rw [mul_inv, Real.exp_neg]⟩

theorem div {k l x y x' y' : ℝ} (h : Close k x y) (h' : Close l x' y') : Close (k + l) (x / x') (y / y') := by
  simpa only [div_eq_mul_inv] using h.mul h'.inv

theorem neg {k x y : ℝ} (h : Close k x y) : Close k (-x) (-y) := by
  obtain ⟨t, ht, rfl⟩ := h
  exact ⟨t, ht, by ring⟩

theorem eq_zero_iff {k x y : ℝ} (h : Close k x y) : x = 0 ↔ y = 0 := by
  obtain ⟨t, -, rfl⟩ := h
  simp [(Real.exp_pos t).ne']

theorem neg_iff {k x y : ℝ} (h : Close k x y) : x < 0 ↔ y < 0 := by
  obtain ⟨t, -, rfl⟩ := h
  constructor
  · intro h
    by_contra hy
    exact absurd h (not_lt.2 (mul_nonneg (not_lt.1 hy) (Real.exp_pos t).le))
  · exact fun h => mul_neg_of_neg_of_pos h (Real.exp_pos t)

/-- The base of a power for which Python returns a real number. -/
def PowDomain (x : ℝ) (e : ℚ) : Prop := 0 < x ∨ (x = 0 ∧ 0 ≤ e) ∨ (x < 0 ∧ e.den = 1)

theorem rpow {k x y : ℝ} (h : Close k x y) {e : ℚ} (hy : PowDomain y e) :
    Close (|(e : ℝ)| * k) (x ^ (e : ℝ)) (y ^ (e : ℝ)) := by
  obtain ⟨t, ht, rfl⟩ := h
  refine ⟨t * e, by rw [abs_mul, mul_comm]; exact mul_le_mul_of_nonneg_left ht (abs_nonneg _), ?_⟩
  rcases lt_or_ge y 0 with h0 | h0
  · have hd : e.den = 1 := by
      rcases hy with h | ⟨h, -⟩ | ⟨-, h⟩
      · exact absurd h0 (not_lt.2 h.le)
      · exact absurd h h0.ne
      · exact h
    have he : (e : ℝ) = ((e.num : ℤ) : ℝ) := by
      conv_lhs => rw [← Rat.coe_int_num_of_den_eq_one hd]
      simp
    rw [he, Real.rpow_intCast, Real.rpow_intCast, mul_zpow, ← Real.rpow_intCast (Real.exp t), ← Real.exp_mul]
  · rw [Real.mul_rpow h0 (Real.exp_pos t).le, ← Real.exp_mul]

theorem powDomain {k x y : ℝ} (h : Close k x y) {e : ℚ} (hy : PowDomain y e) : PowDomain x e := by
  obtain ⟨t, -, rfl⟩ := h
  rcases hy with h | ⟨h, h'⟩ | ⟨h, h'⟩
  · exact Or.inl (mul_pos h (Real.exp_pos t))
  · exact Or.inr (Or.inl ⟨by simp [h], h'⟩)
  · exact Or.inr (Or.inr ⟨mul_neg_of_neg_of_pos h (Real.exp_pos t), h'⟩)

/-- For nonnegative numbers: between the multiples by `e^-k` and `e^k`. -/
theorem of_bounds {k x y : ℝ} (hk : 0 ≤ k) (hy : 0 ≤ y) (h1 : y * Real.exp (-k) ≤ x) (h2 : x ≤ y * Real.exp k) :
    Close k x y := by
  rcases hy.eq_or_lt with rfl | hy
  · have : x = 0 := le_antisymm (by simpa using h2) (by simpa using h1)
    subst this
    exact refl hk 0
  · have hx : 0 < x := (mul_pos hy (Real.exp_pos _)).trans_le h1
    refine ⟨Real.log (x / y), ?_, ?_⟩
    · rw [abs_le]
      constructor
      · rw [Real.le_log_iff_exp_le (div_pos hx hy), le_div_iff₀ hy]; linarith
      · rw [Real.log_le_iff_le_exp (div_pos hx hy), div_le_iff₀ hy]; linarith
    · rw [Real.exp_log (div_pos hx hy)]; field_simp

theorem bounds {k x y : ℝ} (h : Close k x y) (hy : 0 ≤ y) : y * Real.exp (-k) ≤ x ∧ x ≤ y * Real.exp k := by
  obtain ⟨t, ht, rfl⟩ := h
  exact ⟨mul_le_mul_of_nonneg_left (Real.exp_le_exp.2 (abs_le.1 ht).1) hy,
    mul_le_mul_of_nonneg_left (Real.exp_le_exp.2 (abs_le.1 ht).2) hy⟩

/-- Sums of numbers of the same sign. -/
theorem add {k x y x' y' : ℝ} (h : Close k x y) (h' : Close k x' y') (hs : 0 ≤ y * y') : Close k (x + x') (y + y') := by
  have key : ∀ {x y x' y' : ℝ}, Close k x y → Close k x' y' → 0 ≤ y → 0 ≤ y' → Close k (x + x') (y + y') := by
    intro x y x' y' h h' hy hy'
    have b := h.bounds hy
    have b' := h'.bounds hy'
    exact of_bounds h.nonneg (add_nonneg hy hy') (by linarith [b.1, b'.1]) (by linarith [b.2, b'.2])
  rcases mul_nonneg_iff.1 hs with ⟨hy, hy'⟩ | ⟨hy, hy'⟩
  · exact key h h' hy hy'
  · have := (key h.neg h'.neg (by linarith) (by linarith)).neg
    convert this using 1 <;> ring

/-- Relative precision bounds the relative error. -/
theorem abs_sub_le {k x y : ℝ} (h : Close k x y) : |x - y| ≤ (Real.exp k - 1) * |y| := by
  obtain ⟨t, ht, rfl⟩ := h
  have e1 : y * Real.exp t - y = y * (Real.exp t - 1) := by ring
  rw [e1, abs_mul, mul_comm]
  refine mul_le_mul_of_nonneg_right ?_ (abs_nonneg _)
  rw [abs_le]
  have h1 := Real.exp_le_exp.2 (abs_le.1 ht).2
  have h2 := Real.exp_le_exp.2 (abs_le.1 ht).1
  have h3 := Real.exp_pos k
  have h4 : Real.exp (-k) * Real.exp k = 1 := by rw [← Real.exp_add]; simp
  have h5 : 2 ≤ Real.exp k + Real.exp (-k) := by nlinarith [sq_nonneg (Real.exp k - 1), Real.exp_pos (-k)]
  constructor <;> linarith

end Close

/-- A relative error below one is a relative precision. -/
theorem close_of_abs_sub_le {u x y : ℝ} (hu0 : 0 ≤ u) (hu : u < 1) (h : |x - y| ≤ u * |y|) :
    Close (-Real.log (1 - u)) x y := by
  have hk : 0 ≤ -Real.log (1 - u) := by
    have := Real.log_nonpos (by linarith : (0:ℝ) ≤ 1 - u) (by linarith)
    linarith
  have e1 : Real.exp (- -Real.log (1 - u)) = 1 - u := by rw [neg_neg, Real.exp_log (by linarith)]
  have e2 : Real.exp (-Real.log (1 - u)) = (1 - u)⁻¹ := by rw [Real.exp_neg, Real.exp_log (by linarith)]
  have e3 : 1 + u ≤ (1 - u)⁻¹ := by
    rw [le_inv_comm₀ (by linarith) (by linarith), ← one_div, le_div_iff₀ (by linarith)]
    nlinarith
  have key : ∀ {x y : ℝ}, |x - y| ≤ u * |y| → 0 ≤ y → Close (-Real.log (1 - u)) x y := by
    intro x y h hy
    rw [abs_of_nonneg hy, abs_le] at h
    refine Close.of_bounds hk hy ?_ ?_
    · rw [e1]; linarith [h.1]
    · rw [e2]; have := mul_le_mul_of_nonneg_left e3 hy; linarith [h.2]
  rcases le_total 0 y with hy | hy
  · exact key h hy
  · have := (key (x := -x) (y := -y) (by rw [abs_neg]; convert h using 1; rw [abs_sub_comm]; ring_nf) (by linarith)).neg
    simpa using this

/-- The standard model: a rounding function with relative error `u < 1`, and operations that round their exact result. -/
noncomputable def FloatArith.ofRounding (fl : ℝ → ℝ) (u : ℝ) (hu0 : 0 ≤ u) (hu : u < 1) (h : ∀ x, |fl x - x| ≤ u * |x|) :
    FloatArith where
  ε := -Real.log (1 - u)
  add x y := fl (x + y)
  sub x y := fl (x - y)
  mul x y := fl (x * y)
  div x y := fl (x / y)
  pow x e := fl (x ^ (e : ℝ))
  lit q := fl q
  nonneg := (close_of_abs_sub_le hu0 hu (h 0)).nonneg
  add_close _ _ := close_of_abs_sub_le hu0 hu (h _)
  sub_close _ _ := close_of_abs_sub_le hu0 hu (h _)
  mul_close _ _ := close_of_abs_sub_le hu0 hu (h _)
  div_close _ _ _ := close_of_abs_sub_le hu0 hu (h _)
  pow_close _ _ _ := close_of_abs_sub_le hu0 hu (h _)
  lit_close _ := close_of_abs_sub_le hu0 hu (h _)

theorem round53_close (x : ℝ) : |round53 x - x| ≤ 2⁻¹ ^ 53 * |x| := by
  unfold round53
  split
  · next h => simp [h]
  · next h =>
    set e := Int.log 2 |x|
    have hx : 0 < |x| := abs_pos.2 h
    have h1 : (2 : ℝ) ^ e ≤ |x| := by
      have := Int.zpow_log_le_self (b := 2) (by norm_num) hx
      exact_mod_cast this
    have hs : (0 : ℝ) < 2 ^ (e - 52) := by positivity
    have h2 := abs_sub_round (x / 2 ^ (e - 52))
    have e1 : (round (x / 2 ^ (e - 52)) : ℝ) * 2 ^ (e - 52) - x =
        -((x / 2 ^ (e - 52) - round (x / 2 ^ (e - 52))) * 2 ^ (e - 52)) := by field_simp; ring
    rw [e1, abs_neg, abs_mul, abs_of_pos hs]
    have h3 : (2 : ℝ) ^ (e - 52) = 2 ^ e * 2⁻¹ ^ 52 := by
      rw [zpow_sub₀ (by norm_num)]; norm_num; ring
    calc _ ≤ 1 / 2 * (2 : ℝ) ^ (e - 52) := mul_le_mul_of_nonneg_right h2 hs.le
      _ = 2⁻¹ ^ 53 * 2 ^ e := by rw [h3]; ring
      _ ≤ _ := mul_le_mul_of_nonneg_left h1 (by positivity)

/-- Double precision without overflow and underflow. -/
noncomputable def double : FloatArith :=
  FloatArith.ofRounding round53 (2⁻¹ ^ 53) (by positivity) (by norm_num) round53_close

end Verif
