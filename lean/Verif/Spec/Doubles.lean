import Mathlib.Data.Int.Log
import Mathlib.Data.Real.Basic
import Mathlib.Algebra.Order.Round
import Mathlib.Tactic

/-!
# Numbers and roundings of double precision

Numbers with 53 significant bits; overflow and underflow are not modelled.  Nothing here refers to the library.
-/

namespace Verif

/-- A number with at most 53 significant bits. -/
def IsDouble (x : ℝ) : Prop := ∃ k j : ℤ, |k| < 2 ^ 53 ∧ x = k * 2 ^ j

/-- A rounding to double precision: it returns doubles, leaves doubles alone, moves other numbers by at most half a unit in
the last place and keeps their order. -/
structure DoubleRounding (r : ℝ → ℝ) : Prop where
  double : ∀ x, IsDouble (r x)
  mono : Monotone r
  fixes : ∀ x, IsDouble x → r x = x
  close : ∀ x, |r x - x| ≤ 2⁻¹ ^ 53 * |x|

/-- `N x` is an integer nearest to `x`; which one of two does not matter. -/
def IsNearest (N : ℝ → ℤ) : Prop := ∀ x, |(N x : ℝ) - x| ≤ 1 / 2

/-- Rounding to the nearest number with 53 significant bits, given a rule that rounds to integers. -/
noncomputable def toBits53 (N : ℝ → ℤ) (x : ℝ) : ℝ :=
  if x = 0 then 0 else N (x / 2 ^ (Int.log 2 |x| - 52)) * 2 ^ (Int.log 2 |x| - 52)

/-- The rule of Python: the even one of two nearest integers. -/
noncomputable def nearestEven (x : ℝ) : ℤ :=
  if x - ⌊x⌋ < 1 / 2 then ⌊x⌋
  else if 1 / 2 < x - ⌊x⌋ then ⌊x⌋ + 1
  else if ⌊x⌋ % 2 = 0 then ⌊x⌋ else ⌊x⌋ + 1

theorem nearestEven_mono : Monotone nearestEven := by
  intro x y h
  have hx0 := Int.floor_le x
  have hx1 := Int.lt_floor_add_one x
  have hf := Int.floor_le_floor h
  rcases eq_or_lt_of_le hf with hf | hf
  · unfold nearestEven
    rw [← hf]
    split_ifs <;> first | omega | (exfalso; linarith)
  · have b1 : nearestEven x ≤ ⌊x⌋ + 1 := by unfold nearestEven; split_ifs <;> omega
    have b2 : ⌊y⌋ ≤ nearestEven y := by unfold nearestEven; split_ifs <;> omega
    omega

theorem nearestEven_nearest : IsNearest nearestEven := by
  intro x
  have h0 := Int.floor_le x
  have h1 := Int.lt_floor_add_one x
  unfold nearestEven
  split_ifs <;> push_cast <;> rw [abs_le] <;> constructor <;> linarith

/-- A double at least `2^e` is a whole number of `2^(e-52)`. -/
theorem IsDouble.grid {x : ℝ} (h : IsDouble x) {e : ℤ} (he : (2 : ℝ) ^ e ≤ |x|) : ∃ m : ℤ, x = m * 2 ^ (e - 52) := by
  obtain ⟨k, j, hk, rfl⟩ := h
  have hj : (0 : ℝ) < 2 ^ j := by positivity
  have hk' : |(k : ℝ)| < 2 ^ (53 : ℤ) := by exact_mod_cast hk
  rw [abs_mul, abs_of_pos hj] at he
  have : (2 : ℝ) ^ e < 2 ^ (53 + j) := by
    rw [zpow_add₀ (by norm_num)]
    exact lt_of_le_of_lt he (mul_lt_mul_of_pos_right hk' hj)
  have hlt : e < 53 + j := (zpow_lt_zpow_iff_right₀ (by norm_num)).1 this
  obtain ⟨n, hn⟩ := Int.eq_ofNat_of_zero_le (show 0 ≤ j - (e - 52) by omega)
  refine ⟨k * 2 ^ n, ?_⟩
  have : j = n + (e - 52) := by omega
  rw [this, zpow_add₀ (by norm_num)]
  push_cast
  rw [zpow_natCast]
  ring

theorem IsNearest.int {N : ℝ → ℤ} (hN : IsNearest N) (m : ℤ) : N m = m := by
  have h' := hN m
  have : |((N m - m : ℤ) : ℝ)| < 1 := by push_cast; linarith
  have : |N m - m| < 1 := by exact_mod_cast this
  have := Int.abs_lt_one_iff.1 this
  omega

theorem two_log_le {x : ℝ} (h : x ≠ 0) : (2 : ℝ) ^ Int.log 2 |x| ≤ |x| := by
  have := Int.zpow_log_le_self (b := 2) (by norm_num) (abs_pos.2 h)
  exact_mod_cast this

theorem lt_two_log (x : ℝ) : |x| < (2 : ℝ) ^ (Int.log 2 |x| + 1) := by
  have := Int.lt_zpow_succ_log_self (b := 2) (by norm_num) |x|
  exact_mod_cast this

/-- In terms of the exponent: `|x|` is rounded to a number between `2^e` and `2^(e+1)`. -/
theorem toBits53_range {N : ℝ → ℤ} (hN : IsNearest N) (hm : Monotone N) {x : ℝ} (h : x ≠ 0) :
    ∃ m : ℤ, toBits53 N x = m * 2 ^ (Int.log 2 |x| - 52) ∧
      (0 < x → 2 ^ 52 ≤ m ∧ m ≤ 2 ^ 53) ∧ (x < 0 → -2 ^ 53 ≤ m ∧ m ≤ -2 ^ 52) := by
  have h1 := two_log_le h
  have h2 := lt_two_log x
  refine ⟨N (x / 2 ^ (Int.log 2 |x| - 52)), by rw [toBits53, if_neg h], ?_⟩
  set e := Int.log 2 |x|
  have hs : (0 : ℝ) < 2 ^ (e - 52) := by positivity
  have p1 : (2 : ℝ) ^ e = 2 ^ 52 * 2 ^ (e - 52) := by
    rw [← zpow_natCast, ← zpow_add₀ (by norm_num)]; congr 1; push_cast; ring
  have p2 : (2 : ℝ) ^ (e + 1) = 2 ^ 53 * 2 ^ (e - 52) := by
    rw [← zpow_natCast, ← zpow_add₀ (by norm_num)]; congr 1; push_cast; ring
  rw [p1] at h1
  rw [p2] at h2
  constructor
  · intro h0
    rw [abs_of_pos h0] at h1 h2
    have a := hm (show ((2 ^ 52 : ℤ) : ℝ) ≤ x / 2 ^ (e - 52) by rw [le_div_iff₀ hs]; push_cast; linarith)
    have b := hm (show x / 2 ^ (e - 52) ≤ ((2 ^ 53 : ℤ) : ℝ) by rw [div_le_iff₀ hs]; push_cast; linarith)
    rw [hN.int] at a b
    exact ⟨a, b⟩
  · intro h0
    rw [abs_of_neg h0] at h1 h2
    have a := hm (show ((-2 ^ 53 : ℤ) : ℝ) ≤ x / 2 ^ (e - 52) by rw [le_div_iff₀ hs]; push_cast; linarith)
    have b := hm (show x / 2 ^ (e - 52) ≤ ((-2 ^ 52 : ℤ) : ℝ) by rw [div_le_iff₀ hs]; push_cast; linarith)
    rw [hN.int] at a b
    exact ⟨a, b⟩

theorem toBits53_pos {N : ℝ → ℤ} (hN : IsNearest N) (hm : Monotone N) {x : ℝ} (h : 0 < x) :
    (2 : ℝ) ^ Int.log 2 |x| ≤ toBits53 N x ∧ toBits53 N x ≤ 2 ^ (Int.log 2 |x| + 1) := by
  obtain ⟨m, e, hp, -⟩ := toBits53_range hN hm h.ne'
  obtain ⟨a, b⟩ := hp h
  have a : (2 : ℝ) ^ 52 ≤ m := by exact_mod_cast a
  have b : (m : ℝ) ≤ 2 ^ 53 := by exact_mod_cast b
  have hs : (0 : ℝ) < 2 ^ (Int.log 2 |x| - 52) := by positivity
  have p1 : (2 : ℝ) ^ Int.log 2 |x| = 2 ^ 52 * 2 ^ (Int.log 2 |x| - 52) := by
    rw [← zpow_natCast, ← zpow_add₀ (by norm_num)]; congr 1; push_cast; ring
  have p2 : (2 : ℝ) ^ (Int.log 2 |x| + 1) = 2 ^ 53 * 2 ^ (Int.log 2 |x| - 52) := by
    rw [← zpow_natCast, ← zpow_add₀ (by norm_num)]; congr 1; push_cast; ring
  rw [e, p1, p2]
  exact ⟨mul_le_mul_of_nonneg_right a hs.le, mul_le_mul_of_nonneg_right b hs.le⟩

theorem toBits53_neg {N : ℝ → ℤ} (hN : IsNearest N) (hm : Monotone N) {x : ℝ} (h : x < 0) :
    -(2 : ℝ) ^ (Int.log 2 |x| + 1) ≤ toBits53 N x ∧ toBits53 N x ≤ -2 ^ Int.log 2 |x| := by
  obtain ⟨m, e, -, hp⟩ := toBits53_range hN hm h.ne
  obtain ⟨a, b⟩ := hp h
  have a : -(2 : ℝ) ^ 53 ≤ m := by exact_mod_cast a
  have b : (m : ℝ) ≤ -2 ^ 52 := by exact_mod_cast b
  have hs : (0 : ℝ) < 2 ^ (Int.log 2 |x| - 52) := by positivity
  have p1 : (2 : ℝ) ^ Int.log 2 |x| = 2 ^ 52 * 2 ^ (Int.log 2 |x| - 52) := by
    rw [← zpow_natCast, ← zpow_add₀ (by norm_num)]; congr 1; push_cast; ring
  have p2 : (2 : ℝ) ^ (Int.log 2 |x| + 1) = 2 ^ 53 * 2 ^ (Int.log 2 |x| - 52) := by
    rw [← zpow_natCast, ← zpow_add₀ (by norm_num)]; congr 1; push_cast; ring
  rw [e, p1, p2, ← neg_mul, ← neg_mul]
  exact ⟨mul_le_mul_of_nonneg_right a hs.le, mul_le_mul_of_nonneg_right b hs.le⟩

theorem toBits53_mono {N : ℝ → ℤ} (hN : IsNearest N) (hm : Monotone N) : Monotone (toBits53 N) := by
  intro x y h
  have same (he : Int.log 2 |x| = Int.log 2 |y|) (hx : x ≠ 0) (hy : y ≠ 0) : toBits53 N x ≤ toBits53 N y := by
    unfold toBits53
    rw [if_neg hx, if_neg hy, he]
    have hs : (0 : ℝ) < 2 ^ (Int.log 2 |y| - 52) := by positivity
    refine mul_le_mul_of_nonneg_right ?_ hs.le
    exact_mod_cast hm ((div_le_div_iff_of_pos_right hs).2 h)
  have up {a b : ℤ} (hab : a ≤ b) : (2 : ℝ) ^ a ≤ 2 ^ b := zpow_le_zpow_right₀ (by norm_num) hab
  rcases lt_trichotomy x 0 with hx | rfl | hx
  · rcases lt_trichotomy y 0 with hy | rfl | hy
    · rcases eq_or_ne (Int.log 2 |x|) (Int.log 2 |y|) with he | he
      · exact same he hx.ne hy.ne
      · have hl : Int.log 2 |y| ≤ Int.log 2 |x| :=
          Int.log_mono_right (abs_pos.2 hy.ne) (by rw [abs_of_neg hx, abs_of_neg hy]; linarith)
        have := up (show Int.log 2 |y| + 1 ≤ Int.log 2 |x| by omega)
        linarith [(toBits53_neg hN hm hx).2, (toBits53_neg hN hm hy).1]
    · have := (toBits53_neg hN hm hx).2
      have p : (0 : ℝ) < 2 ^ Int.log 2 |x| := by positivity
      have : toBits53 N 0 = 0 := by simp [toBits53]
      linarith
    · have p : (0 : ℝ) < 2 ^ Int.log 2 |x| := by positivity
      have q : (0 : ℝ) < 2 ^ Int.log 2 |y| := by positivity
      linarith [(toBits53_neg hN hm hx).2, (toBits53_pos hN hm hy).1]
  · have z : toBits53 N 0 = 0 := by simp [toBits53]
    rcases eq_or_lt_of_le h with rfl | hy
    · exact le_rfl
    · have q : (0 : ℝ) < 2 ^ Int.log 2 |y| := by positivity
      linarith [(toBits53_pos hN hm hy).1]
  · have hy : 0 < y := hx.trans_le h
    rcases eq_or_ne (Int.log 2 |x|) (Int.log 2 |y|) with he | he
    · exact same he hx.ne' hy.ne'
    · have hl : Int.log 2 |x| ≤ Int.log 2 |y| :=
        Int.log_mono_right (abs_pos.2 hx.ne') (by rw [abs_of_pos hx, abs_of_pos hy]; exact h)
      have := up (show Int.log 2 |x| + 1 ≤ Int.log 2 |y| by omega)
      linarith [(toBits53_pos hN hm hx).2, (toBits53_pos hN hm hy).1]

theorem toBits53_rounding {N : ℝ → ℤ} (hN : IsNearest N) (hm : Monotone N) : DoubleRounding (toBits53 N) := by
  refine ⟨fun x => ?_, toBits53_mono hN hm, fun x hx => ?_, fun x => ?_⟩
  · rcases eq_or_ne x 0 with rfl | h
    · exact ⟨0, 0, by norm_num, by simp [toBits53]⟩
    · obtain ⟨m, e, h1, h2⟩ := toBits53_range hN hm h
      have hb : |m| ≤ 2 ^ 53 := by
        rw [abs_le]
        rcases lt_or_gt_of_ne h with h | h
        · have := h2 h; omega
        · have := h1 h; omega
      rcases lt_or_eq_of_le hb with hb | hb
      · exact ⟨m, _, hb, e⟩
      · have half : ∀ s : ℤ, |s| = 1 → (m = s * 2 ^ 53) → IsDouble (toBits53 N x) := by
          intro s hs hms
          refine ⟨s * 2 ^ 52, Int.log 2 |x| - 52 + 1, by rw [abs_mul, hs]; norm_num, ?_⟩
          rw [e, hms, zpow_add₀ (by norm_num)]
          push_cast
          ring
        rcases eq_or_eq_neg_of_abs_eq hb with hb | hb
        · exact half 1 (by norm_num) (by rw [hb]; norm_num)
        · exact half (-1) (by norm_num) (by rw [hb]; norm_num)
  · unfold toBits53
    split_ifs with h
    · exact h.symm
    · obtain ⟨m, hm⟩ := hx.grid (two_log_le h)
      have hs : (2 : ℝ) ^ (Int.log 2 |x| - 52) ≠ 0 := by positivity
      have : x / 2 ^ (Int.log 2 |x| - 52) = m := by rw [div_eq_iff hs]; exact hm
      rw [this, hN.int]
      exact hm.symm
  · unfold toBits53
    split_ifs with h
    · simp [h]
    · have h1 := two_log_le h
      set e := Int.log 2 |x|
      have hs : (0 : ℝ) < 2 ^ (e - 52) := by positivity
      have h2 := hN (x / 2 ^ (e - 52))
      have e1 : (N (x / 2 ^ (e - 52)) : ℝ) * 2 ^ (e - 52) - x =
          (N (x / 2 ^ (e - 52)) - x / 2 ^ (e - 52)) * 2 ^ (e - 52) := by field_simp
      rw [e1, abs_mul, abs_of_pos hs]
      have h3 : (2 : ℝ) ^ (e - 52) = 2 ^ e * 2⁻¹ ^ 52 := by
        rw [zpow_sub₀ (by norm_num)]; norm_num; ring
      calc _ ≤ 1 / 2 * (2 : ℝ) ^ (e - 52) := mul_le_mul_of_nonneg_right h2 hs.le
        _ = 2⁻¹ ^ 53 * 2 ^ e := by rw [h3]; ring
        _ ≤ _ := mul_le_mul_of_nonneg_left h1 (by positivity)

/-- The arithmetic of Python. -/
theorem python_rounding : DoubleRounding (toBits53 nearestEven) := toBits53_rounding nearestEven_nearest nearestEven_mono

/-- Small integers are doubles. -/
theorem isDouble_int {n : ℤ} (h : |n| < 2 ^ 53) : IsDouble n := ⟨n, 0, h, by simp⟩

end Verif
