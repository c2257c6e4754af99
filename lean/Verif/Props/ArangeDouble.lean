import Verif.Lemmas.ArangeDouble
import Verif.Props.Order
import Mathlib.Analysis.SpecialFunctions.Log.Deriv

/-!
# C121: the orders of the range are the ones tested
-/

namespace Verif

/-- For `start`, `stop` and `step` that are whole numbers of a power of two (halves, quarters, …), in every rounding, the
orders tested in double precision are the ones written down. -/
theorem C121_grid_partial {r : ℝ → ℝ} (hr : DoubleRounding r) {a b c j : ℤ} (ha : |a| ≤ 2 ^ 50) (hb : |b| ≤ 2 ^ 50) (hc : |c| ≤ 2 ^ 50) :
    arangeDouble r (a * 2 ^ j) (b * 2 ^ j) (c * 2 ^ j) = arange (a * 2 ^ j) (b * 2 ^ j) (c * 2 ^ j) := by
  have h2 : (2 : ℝ) ^ j ≠ 0 := by positivity
  unfold arangeDouble arange
  by_cases hc0 : c = 0
  · simp [hc0]
  have hcr : (c : ℝ) ≠ 0 := by exact_mod_cast hc0
  rw [if_neg (mul_ne_zero hcr h2), if_neg (mul_ne_zero hcr h2)]
  have hd : |b - a| ≤ 2 ^ 51 := by
    have := abs_sub b a
    norm_num at *; omega
  have e1 : (b * 2 ^ j - a * 2 ^ j : ℝ) = (b - a : ℤ) * 2 ^ j := by push_cast; ring
  have e2 : ((b - a : ℤ) * 2 ^ j : ℝ) / (c * 2 ^ j) = (b - a : ℤ) / c := mul_div_mul_right _ _ h2
  have hl : arangeLength r (a * 2 ^ j) (b * 2 ^ j) (c * 2 ^ j) = ⌈((b - a : ℤ) : ℝ) / c⌉.toNat := by
    unfold arangeLength
    rw [e1, hr.fixes _ (isDouble_scaled (by norm_num at *; omega)), e2, ceil_round_eq hr hd hc0]
  rw [hl, e1, e2]
  congr 1
  apply List.map_congr_left
  intro k hk
  rw [List.mem_range] at hk
  refine arangeEntry_grid hr ha hc ?_
  have hk' : (k : ℤ) < ⌈((b - a : ℤ) : ℝ) / c⌉ := by omega
  rw [Int.lt_ceil] at hk'
  have hk0 : (0 : ℝ) ≤ ((k : ℤ) : ℝ) := by positivity
  have : |((k * c : ℤ) : ℝ)| ≤ |((b - a : ℤ) : ℝ)| := by
    push_cast at hk' hk0 ⊢
    rw [abs_mul, abs_of_nonneg hk0]
    have hq : |((b : ℝ) - a) / c| * |(c : ℝ)| = |(b : ℝ) - a| := by
      rw [abs_div, div_mul_cancel₀ _ (abs_ne_zero.2 hcr)]
    rw [← hq]
    gcongr
    exact le_trans hk'.le (le_abs_self _)
  have : |(k * c : ℤ)| ≤ |b - a| := by exact_mod_cast this
  omega

/-- So the whole function returns what the exact model returns. -/
theorem C121_method_partial {r : ℝ → ℝ} (hr : DoubleRounding r) (time data : List ℝ) {start stop step : ℚ} {a b c j : ℤ}
    (ha : |a| ≤ 2 ^ 50) (hb : |b| ≤ 2 ^ 50) (hc : |c| ≤ 2 ^ 50)
    (h1 : start = a * 2 ^ j) (h2 : stop = b * 2 ^ j) (h3 : step = c * 2 ^ j) :
    integralMethodDouble r time data start stop step = integralMethod time data start stop step := by
  have lift : ∀ {q : ℚ} {n : ℤ}, |n| ≤ 2 ^ 50 → q = n * 2 ^ j → r (q : ℝ) = n * 2 ^ j ∧ (q : ℝ) = n * 2 ^ j := by
    intro q n hn h
    have e : (q : ℝ) = n * 2 ^ j := by rw [h]; push_cast; rfl
    exact ⟨by rw [e]; exact hr.fixes _ (isDouble_scaled (by norm_num at *; omega)), e⟩
  unfold integralMethodDouble integralMethod
  rw [(lift ha h1).1, (lift hb h2).1, (lift hc h3).1, (lift ha h1).2, (lift hb h2).2, (lift hc h3).2, C121_grid_partial hr ha hb hc]
  rfl

/-- For every range, the order tested at place `k` is `start + k step` up to rounding errors. -/
theorem C121_close_partial {r : ℝ → ℝ} (hr : DoubleRounding r) (start step : ℚ) (k : ℕ) :
    |arangeEntry r (r start) (r step) k - (start + k * step)| ≤ (k + 1) * (|(start : ℝ)| + |(step : ℝ)|) * 2⁻¹ ^ 49 := by
  have h := arangeEntry_close hr (r start) (r step) k
  have hs := hr.close start
  have ht := hr.close step
  obtain ⟨u, hu⟩ : ∃ u : ℝ, u = 2⁻¹ ^ 53 := ⟨_, rfl⟩
  have hu0 : 0 < u := by rw [hu]; positivity
  have hu1 : u ≤ 1 / 100 := by rw [hu]; norm_num
  have e50 : (2⁻¹ : ℝ) ^ 50 = 8 * u := by rw [hu]; norm_num
  have e49 : (2⁻¹ : ℝ) ^ 49 = 16 * u := by rw [hu]; norm_num
  rw [← hu] at hs ht
  rw [e50] at h
  rw [e49]
  generalize arangeEntry r (r start) (r step) k = x at h
  generalize r start = s at h hs
  generalize r step = t at h ht
  have hs' : |s| ≤ |(start : ℝ)| + u * |(start : ℝ)| := by
    have := abs_sub_abs_le_abs_sub s (start : ℝ); linarith
  have ht' : |t| ≤ |(step : ℝ)| + u * |(step : ℝ)| := by
    have := abs_sub_abs_le_abs_sub t (step : ℝ); linarith
  have hk : (0 : ℝ) ≤ k := by positivity
  generalize (start : ℝ) = s0 at *
  generalize (step : ℝ) = t0 at *
  have hS : 0 ≤ |s0| + |t0| := by positivity
  have b1 : |s| + |t| ≤ (|s0| + |t0|) * (1 + 1 / 100) := by nlinarith [abs_nonneg s0, abs_nonneg t0]
  have key : |x - (s0 + k * t0)| ≤ k * (|s| + |t|) * (8 * u) + u * |s0| + k * (u * |t0|) := by
    calc |x - (s0 + k * t0)| = |(x - (s + k * t)) + ((s - s0) + k * (t - t0))| := by ring_nf
      _ ≤ |x - (s + k * t)| + |(s - s0) + k * (t - t0)| := abs_add_le _ _
      _ ≤ |x - (s + k * t)| + (|s - s0| + |k * (t - t0)|) := by gcongr; exact abs_add_le _ _
      _ ≤ k * (|s| + |t|) * (8 * u) + (u * |s0| + k * (u * |t0|)) := by
          rw [abs_mul, abs_of_nonneg hk]
          gcongr
      _ = _ := by ring
  have p1 : k * (|s| + |t|) * (8 * u) ≤ k * ((|s0| + |t0|) * (1 + 1 / 100)) * (8 * u) := by gcongr
  have p2 : u * |s0| ≤ u * (|s0| + |t0|) := by
    apply mul_le_mul_of_nonneg_left _ hu0.le; linarith [abs_nonneg t0]
  have p3 : (k : ℝ) * (u * |t0|) ≤ k * (u * (|s0| + |t0|)) := by
    apply mul_le_mul_of_nonneg_left _ hk
    apply mul_le_mul_of_nonneg_left _ hu0.le; linarith [abs_nonneg s0]
  have q0 : 0 ≤ u * (|s0| + |t0|) := by positivity
  have q1 : 0 ≤ k * (u * (|s0| + |t0|)) := by positivity
  nlinarith

/-- At most one order too many or too few is tested. -/
theorem C121_count_partial {r : ℝ → ℝ} (hr : DoubleRounding r) {start stop step : ℝ} (hb : |(stop - start) / step| ≤ 2 ^ 50) :
    |(arangeLength r start stop step : ℤ) - (⌈(stop - start) / step⌉.toNat : ℤ)| ≤ 1 := by
  have hd := hr.close (stop - start)
  have hq := hr.close (r (stop - start) / step)
  unfold arangeLength
  obtain ⟨u, hu⟩ : ∃ u : ℝ, u = 2⁻¹ ^ 53 := ⟨_, rfl⟩
  have hu0 : 0 < u := by rw [hu]; positivity
  have hu1 : u ≤ 1 / 100 := by rw [hu]; norm_num
  have hub : u * 2 ^ 50 = 1 / 8 := by rw [hu]; norm_num
  rw [← hu] at hd hq
  have h1 : |r (stop - start) / step - (stop - start) / step| ≤ u * |(stop - start) / step| := by
    rw [← sub_div, abs_div, abs_div, ← mul_div_assoc]
    gcongr
  generalize (stop - start) / step = q at *
  generalize r (stop - start) / step = q' at *
  generalize r q' = q'' at *
  have b1 : u * |q| ≤ 1 / 8 := by rw [← hub]; gcongr
  have b2 : |q'| ≤ |q| + 1 / 8 := by have := abs_sub_abs_le_abs_sub q' q; linarith
  have b3 : u * |q'| ≤ 1 / 4 := by
    calc u * |q'| ≤ u * (|q| + 1 / 8) := by gcongr
      _ = u * |q| + u * (1 / 8) := by ring
      _ ≤ 1 / 4 := by linarith
  have b4 : |q'' - q| < 1 := by
    calc |q'' - q| = |(q'' - q') + (q' - q)| := by ring_nf
      _ ≤ _ := abs_add_le _ _
      _ < 1 := by linarith
  have b5 : |⌈q''⌉ - ⌈q⌉| ≤ 1 := by
    rw [abs_lt] at b4
    have c1 := Int.le_ceil q''
    have c2 := Int.ceil_lt_add_one q''
    have c3 := Int.le_ceil q
    have c4 := Int.ceil_lt_add_one q
    have d1 : (⌈q''⌉ : ℝ) < (⌈q⌉ + 2 : ℤ) := by push_cast; linarith
    have d2 : (⌈q⌉ : ℝ) < (⌈q''⌉ + 2 : ℤ) := by push_cast; linarith
    have d1 : ⌈q''⌉ < ⌈q⌉ + 2 := by exact_mod_cast d1
    have d2 : ⌈q⌉ < ⌈q''⌉ + 2 := by exact_mod_cast d2
    rw [abs_le]; constructor <;> omega
  rw [abs_le] at *
  omega

/-- The double nearest to one tenth. -/
theorem tenth_double {N : ℝ → ℤ} (hN : IsNearest N) : toBits53 N ((1 / 10 : ℚ) : ℝ) = 7205759403792794 / 2 ^ 56 := by
  rw [toBits53_eq hN 7205759403792794 (-56)]
  · norm_num
  all_goals norm_num [abs_lt]

/-- With the range (0.5, 1.5, 0.1), place five holds `1 - 2^-53`. -/
theorem order_one_missed {N : ℝ → ℤ} (hN : IsNearest N) (hm : Monotone N) :
    arangeEntry (toBits53 N) (toBits53 N ((1 / 2 : ℚ) : ℝ)) (toBits53 N ((1 / 10 : ℚ) : ℝ)) 5 = 1 - 2⁻¹ ^ 53 := by
  have hr := toBits53_rounding hN hm
  have half : toBits53 N ((1 / 2 : ℚ) : ℝ) = 1 / 2 := by
    have : ((1 / 2 : ℚ) : ℝ) = (1 : ℤ) * 2 ^ (-1 : ℤ) := by norm_num
    rw [this, hr.fixes _ (isDouble_scaled (by norm_num))]; norm_num
  have second : toBits53 N (1 / 2 + 7205759403792794 / 2 ^ 56) = 5404319552844595 / 2 ^ 53 := by
    rw [toBits53_eq hN 5404319552844595 (-53)]
    · norm_num
    all_goals norm_num [abs_lt]
  have e1 : (5404319552844595 / 2 ^ 53 - 1 / 2 : ℝ) = (900719925474099 : ℤ) * 2 ^ (-53 : ℤ) := by norm_num
  have e2 : ((5 : ℕ) * ((900719925474099 : ℤ) * 2 ^ (-53 : ℤ)) : ℝ) = (4503599627370495 : ℤ) * 2 ^ (-53 : ℤ) := by norm_num
  have e3 : (1 / 2 + (4503599627370495 : ℤ) * 2 ^ (-53 : ℤ) : ℝ) = (9007199254740991 : ℤ) * 2 ^ (-53 : ℤ) := by norm_num
  unfold arangeEntry
  rw [if_neg (by norm_num), if_neg (by norm_num), half, tenth_double hN, second, e1, hr.fixes _ (isDouble_scaled (by norm_num)), e2,
    hr.fixes _ (isDouble_scaled (by norm_num)), e3, hr.fixes _ (isDouble_scaled (by norm_num))]
  norm_num

/-- With the range (0.5, 1.5, 0.1) none of the tested orders is 1. -/
theorem C121_one_missing {N : ℝ → ℤ} (hN : IsNearest N) (hm : Monotone N) (k : ℕ) :
    arangeEntry (toBits53 N) (toBits53 N ((1 / 2 : ℚ) : ℝ)) (toBits53 N ((1 / 10 : ℚ) : ℝ)) k ≠ 1 := by
  intro h
  by_cases h5 : k = 5
  · rw [h5, order_one_missed hN hm] at h
    norm_num at h
  have hc := C121_close_partial (toBits53_rounding hN hm) (1 / 2) (1 / 10) k
  rw [h] at hc
  have hk : (0 : ℝ) ≤ k := by positivity
  push_cast at hc
  rw [abs_of_pos (show (0 : ℝ) < 1 / 2 by norm_num), abs_of_pos (show (0 : ℝ) < 1 / 10 by norm_num)] at hc
  rw [abs_le] at hc
  have e49 : (2⁻¹ : ℝ) ^ 49 ≤ 1 / 1000 := by norm_num
  have e49' : (0 : ℝ) < (2⁻¹ : ℝ) ^ 49 := by positivity
  have b : ((k : ℝ) + 1) * (1 / 2 + 1 / 10) * 2⁻¹ ^ 49 ≤ (k + 1) * (1 / 1000) := by
    have : ((k : ℝ) + 1) * (1 / 2 + 1 / 10) ≤ k + 1 := by linarith
    calc ((k : ℝ) + 1) * (1 / 2 + 1 / 10) * 2⁻¹ ^ 49 ≤ (k + 1) * 2⁻¹ ^ 49 := by gcongr
      _ ≤ _ := by gcongr
  rcases Nat.lt_or_gt_of_ne h5 with h' | h'
  · have : (k : ℝ) ≤ 4 := by exact_mod_cast Nat.lt_succ_iff.1 h'
    linarith [hc.2]
  · have : (6 : ℝ) ≤ k := by exact_mod_cast h'
    linarith [hc.1]

/-- Whatever the measurements, a search from 0.5 to 1.5 in steps of 0.1 never reports order 1. -/
theorem C121_never_one {N : ℝ → ℤ} (hN : IsNearest N) (hm : Monotone N) (time data : List ℝ) (o q : ℝ) (stop : ℚ)
    (h : integralMethodDouble (toBits53 N) time data (1 / 2) stop (1 / 10) = .ok (o, q)) : o ≠ 1 := by
  unfold integralMethodDouble arangeDouble at h
  rw [if_neg (by rw [tenth_double hN]; norm_num)] at h
  intro ho
  rcases integralLoop_order time _ _ _ _ _ h with h | h
  · rw [ho] at h; norm_num at h
  · rw [ho, List.mem_map] at h
    obtain ⟨k, -, hk⟩ := h
    exact C121_one_missing hN hm k hk

/-- Exact measurements of a first order reaction: in exact arithmetic the search from 0.5 to 1.5 in steps of 0.1 finds order 1
with a perfect fit, in double precision it cannot. -/
theorem C121_first_order_lost {N : ℝ → ℤ} (hN : IsNearest N) (hm : Monotone N) {time data : List ℝ}
    (h : ReactionOfOrder 1 time data) (h3 : ThreeTimes time) :
    integralMethod time data ((1 / 2 : ℚ) : ℝ) ((3 / 2 : ℚ) : ℝ) ((1 / 10 : ℚ) : ℝ) = .ok (1, 1) ∧
      ∀ o q, integralMethodDouble (toBits53 N) time data (1 / 2) (3 / 2) (1 / 10) = .ok (o, q) → o ≠ 1 := by
  refine ⟨C88_first_order h h3 _ _ _ [1 / 2, 6 / 10, 7 / 10, 8 / 10, 9 / 10] [11 / 10, 12 / 10, 13 / 10, 14 / 10] ?_ (by norm_num),
    fun o q => C121_never_one hN hm time data o q (3 / 2)⟩
  have e : ⌈((((3 / 2 : ℚ) : ℝ) - ((1 / 2 : ℚ) : ℝ)) / ((1 / 10 : ℚ) : ℝ))⌉.toNat = 10 := by
    rw [show (((3 / 2 : ℚ) : ℝ) - ((1 / 2 : ℚ) : ℝ)) / ((1 / 10 : ℚ) : ℝ) = ((10 : ℤ) : ℝ) by norm_num, Int.ceil_intCast]; rfl
  rw [arange, if_neg (by norm_num), e]
  simp only [List.range_succ, List.range_zero, List.map_cons, List.map_nil, List.nil_append, List.cons_append]
  norm_num

/-- Not every order of the range as written is tested. -/
theorem C121_tested_false : ¬ ∀ (start stop step : ℚ) (k : ℕ), 0 < step → start + k * step < stop →
    ∃ is, arangeDouble (toBits53 nearestEven) (toBits53 nearestEven start) (toBits53 nearestEven stop) (toBits53 nearestEven step)
        = .ok is ∧ ((start + k * step : ℚ) : ℝ) ∈ is := by
  intro h
  obtain ⟨is, h1, h2⟩ := h (1 / 2) (3 / 2) (1 / 10) 5 (by norm_num) (by norm_num)
  unfold arangeDouble at h1
  rw [if_neg (by rw [tenth_double nearestEven_nearest]; norm_num)] at h1
  injection h1 with h1
  rw [← h1, List.mem_map] at h2
  obtain ⟨k, -, hk⟩ := h2
  exact C121_one_missing nearestEven_nearest nearestEven_mono k (by rw [hk]; norm_num)

/-- The range (1, 1.3, 0.1) has four orders in double precision, and the last one lies beyond `stop`. -/
theorem C121_stop_false {N : ℝ → ℤ} (hN : IsNearest N) (hm : Monotone N) :
    ∃ is, arangeDouble (toBits53 N) (toBits53 N ((1 : ℚ) : ℝ)) (toBits53 N ((13 / 10 : ℚ) : ℝ)) (toBits53 N ((1 / 10 : ℚ) : ℝ)) = .ok is ∧
      is.length = 4 ∧ ∃ i ∈ is, toBits53 N ((13 / 10 : ℚ) : ℝ) < i := by
  have hr := toBits53_rounding hN hm
  have one : toBits53 N ((1 : ℚ) : ℝ) = 1 := by
    have : ((1 : ℚ) : ℝ) = (1 : ℤ) := by norm_num
    rw [this, hr.fixes _ (isDouble_int (by norm_num))]; norm_num
  have stop : toBits53 N ((13 / 10 : ℚ) : ℝ) = 5854679515581645 / 2 ^ 52 := by
    rw [toBits53_eq hN 5854679515581645 (-52)]
    · norm_num
    all_goals norm_num [abs_lt]
  have e0 : (5854679515581645 / 2 ^ 52 - 1 : ℝ) = (1351079888211149 : ℤ) * 2 ^ (-52 : ℤ) := by norm_num
  have quot : toBits53 N (((1351079888211149 : ℤ) * 2 ^ (-52 : ℤ)) / (7205759403792794 / 2 ^ 56)) = 6755399441055745 / 2 ^ 51 := by
    rw [toBits53_eq hN 6755399441055745 (-51)]
    · norm_num
    all_goals norm_num [abs_lt]
  have second : toBits53 N (1 + 7205759403792794 / 2 ^ 56) = 4953959590107546 / 2 ^ 52 := by
    rw [toBits53_eq hN 4953959590107546 (-52)]
    · norm_num
    all_goals norm_num [abs_lt]
  have e1 : (4953959590107546 / 2 ^ 52 - 1 : ℝ) = (450359962737050 : ℤ) * 2 ^ (-52 : ℤ) := by norm_num
  have e2 : ((3 : ℕ) * ((450359962737050 : ℤ) * 2 ^ (-52 : ℤ)) : ℝ) = (1351079888211150 : ℤ) * 2 ^ (-52 : ℤ) := by norm_num
  have e3 : (1 + (1351079888211150 : ℤ) * 2 ^ (-52 : ℤ) : ℝ) = (5854679515581646 : ℤ) * 2 ^ (-52 : ℤ) := by norm_num
  have hlen : arangeLength (toBits53 N) 1 (5854679515581645 / 2 ^ 52) (7205759403792794 / 2 ^ 56) = 4 := by
    unfold arangeLength
    rw [e0, hr.fixes _ (isDouble_scaled (by norm_num)), quot]
    have : ⌈(6755399441055745 / 2 ^ 51 : ℝ)⌉ = 4 := by rw [Int.ceil_eq_iff]; norm_num
    rw [this]; rfl
  have h3 : arangeEntry (toBits53 N) 1 (7205759403792794 / 2 ^ 56) 3 = 5854679515581646 / 2 ^ 52 := by
    unfold arangeEntry
    rw [if_neg (by norm_num), if_neg (by norm_num), second, e1, hr.fixes _ (isDouble_scaled (by norm_num)), e2,
      hr.fixes _ (isDouble_scaled (by norm_num)), e3, hr.fixes _ (isDouble_scaled (by norm_num))]
    norm_num
  rw [one, stop, tenth_double hN]
  refine ⟨_, by rw [arangeDouble, if_neg (by norm_num)], by simp [hlen], _, List.mem_map.2 ⟨3, by simp [hlen], h3⟩, ?_⟩
  norm_num

/-- What happens at the place of order 1 instead: the transformation of reaction_parameters.py:55 with the order `1 - 2^-53`
turns every measurement between 0.61 and 1.64 into the same number, so the measurements are lost. -/
theorem C121_lost {N : ℝ → ℤ} (hN : IsNearest N) (hm : Monotone N) {x i : ℝ} (hx : |Real.log x| ≤ 49 / 100) (h0 : 0 < x)
    (hi : i = 1 - 2⁻¹ ^ 53) : toBits53 N (x ^ toBits53 N (-i + 1)) = 1 := by
  have hr := toBits53_rounding hN hm
  have e : -i + 1 = (1 : ℤ) * 2 ^ (-53 : ℤ) := by rw [hi]; norm_num
  rw [e, hr.fixes _ (isDouble_scaled (by norm_num)), Real.rpow_def_of_pos h0]
  set t := Real.log x * ((1 : ℤ) * 2 ^ (-53 : ℤ)) with ht
  have htb : |t| ≤ 49 / 100 * 2⁻¹ ^ 53 := by
    rw [ht, abs_mul]
    refine mul_le_mul hx ?_ (abs_nonneg _) (by norm_num)
    rw [abs_of_pos (by positivity)]; norm_num
  have ht1 : |t| ≤ 1 := le_trans htb (by norm_num)
  have he := Real.abs_exp_sub_one_le ht1
  have hb := Real.abs_exp_sub_one_sub_id_le ht1
  have hsq : t ^ 2 ≤ 2⁻¹ ^ 100 := by
    rw [← sq_abs]
    calc |t| ^ 2 ≤ (49 / 100 * 2⁻¹ ^ 53) ^ 2 := by gcongr
      _ ≤ _ := by norm_num
  have hsmall : |Real.exp t - 1| ≤ 495 / 1000 * 2⁻¹ ^ 53 := by
    calc |Real.exp t - 1| = |(Real.exp t - 1 - t) + t| := by ring_nf
      _ ≤ _ := abs_add_le _ _
      _ ≤ 2⁻¹ ^ 100 + 49 / 100 * 2⁻¹ ^ 53 := by linarith
      _ ≤ _ := by norm_num
  rw [abs_le] at hsmall
  clear he hb
  generalize Real.exp t = y at hsmall
  rcases lt_or_ge y 1 with hlt | hge
  · rw [toBits53_eq hN 9007199254740992 (-53)]
    · norm_num
    · rw [zpow_neg, div_inv_eq_mul]; norm_num at hsmall ⊢; linarith [hsmall.1]
    · rw [zpow_neg, div_inv_eq_mul]; norm_num at hsmall ⊢; linarith
    · rw [zpow_neg, div_inv_eq_mul, abs_lt]; norm_num at hsmall ⊢; constructor <;> linarith [hsmall.1, hsmall.2]
  · rw [toBits53_eq hN 4503599627370496 (-52)]
    · norm_num
    · rw [zpow_neg, div_inv_eq_mul]; norm_num at hsmall ⊢; linarith
    · rw [zpow_neg, div_inv_eq_mul]; norm_num at hsmall ⊢; linarith [hsmall.2]
    · rw [zpow_neg, div_inv_eq_mul, abs_lt]; norm_num at hsmall ⊢; constructor <;> linarith [hsmall.1, hsmall.2]

/-- The range of the documentation, (0, 4, 0.5). -/
example (time data : List ℝ) :
    integralMethodDouble (toBits53 nearestEven) time data 0 4 (1 / 2) = integralMethod time data (0 : ℚ) (4 : ℚ) (1 / 2 : ℚ) :=
  C121_method_partial python_rounding time data (a := 0) (b := 8) (c := 1) (j := -1) (by norm_num) (by norm_num) (by norm_num)
    (by norm_num) (by norm_num) (by norm_num)

example (k : ℕ) : arangeEntry (toBits53 nearestEven) (toBits53 nearestEven ((1 / 2 : ℚ) : ℝ)) (toBits53 nearestEven ((1 / 10 : ℚ) : ℝ)) k ≠ 1 :=
  C121_one_missing nearestEven_nearest nearestEven_mono k

end Verif
