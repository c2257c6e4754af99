import Verif.Reactions.IntegralDouble

namespace Verif

/-- The double nearest to a number that is not halfway between two. -/
theorem toBits53_eq {N : ℝ → ℤ} (hN : IsNearest N) {x : ℝ} (k j : ℤ) (h1 : (2 : ℝ) ^ 52 ≤ x / 2 ^ j) (h2 : x / 2 ^ j < 2 ^ 53)
    (hk : |x / 2 ^ j - k| < 1 / 2) : toBits53 N x = k * 2 ^ j := by
  have hs : (0 : ℝ) < 2 ^ j := by positivity
  have hx : 0 < x := by
    have : 0 < x / 2 ^ j := lt_of_lt_of_le (by positivity) h1
    have := mul_pos this hs
    rwa [div_mul_cancel₀ _ hs.ne'] at this
  have hl : Int.log 2 |x| = j + 52 := by
    rw [abs_of_pos hx]
    rw [le_div_iff₀ hs] at h1
    rw [div_lt_iff₀ hs] at h2
    have e1 : ((2 : ℕ) : ℝ) ^ (j + 52) = 2 ^ 52 * 2 ^ j := by
      push_cast
      rw [← zpow_natCast, ← zpow_add₀ (by norm_num)]; congr 1; push_cast; ring
    have e2 : ((2 : ℕ) : ℝ) ^ (j + 53) = 2 ^ 53 * 2 ^ j := by
      push_cast
      rw [← zpow_natCast, ← zpow_add₀ (by norm_num)]; congr 1; push_cast; ring
    have a := (Int.zpow_le_iff_le_log (b := 2) (by norm_num) hx).1 (e1 ▸ h1)
    have b := (Int.lt_zpow_iff_log_lt (b := 2) (by norm_num) hx).1 (e2 ▸ h2)
    omega
  have hn := hN (x / 2 ^ j)
  have : |((N (x / 2 ^ j) - k : ℤ) : ℝ)| < 1 := by
    push_cast
    calc |(N (x / 2 ^ j) : ℝ) - k| = |((N (x / 2 ^ j) : ℝ) - x / 2 ^ j) + (x / 2 ^ j - k)| := by ring_nf
      _ ≤ _ := abs_add_le _ _
      _ < 1 := by linarith
  have : |N (x / 2 ^ j) - k| < 1 := by exact_mod_cast this
  have := Int.abs_lt_one_iff.1 this
  have e : N (x / 2 ^ j) = k := by omega
  rw [toBits53, if_neg hx.ne', hl, show j + 52 - 52 = j by ring, e]

theorem isDouble_scaled {k j : ℤ} (h : |k| < 2 ^ 53) : IsDouble (k * 2 ^ j) := ⟨k, j, h, rfl⟩

/-- On a grid the length is that of exact arithmetic. -/
theorem ceil_round_eq {r : ℝ → ℝ} (hr : DoubleRounding r) {d c : ℤ} (hd : |d| ≤ 2 ^ 51) (hc : c ≠ 0) :
    ⌈r ((d : ℝ) / c)⌉ = ⌈(d : ℝ) / c⌉ := by
  set q : ℝ := d / c with hq
  set n := ⌈q⌉ with hn
  have hc' : (1 : ℝ) ≤ |(c : ℝ)| := by exact_mod_cast Int.one_le_abs hc
  have hd' : |(d : ℝ)| ≤ 2 ^ 51 := by exact_mod_cast hd
  have hqa : |q| ≤ 2 ^ 51 := by
    rw [hq, abs_div]
    exact le_trans (div_le_self (abs_nonneg _) hc') hd'
  have hq1 := Int.le_ceil q
  have hq2 := Int.ceil_lt_add_one q
  have hna : |n| < 2 ^ 53 := by
    have : |(n : ℝ)| < 2 ^ 53 := by
      rw [abs_le] at hqa
      rw [abs_lt]
      constructor <;> norm_num at hqa ⊢ <;> linarith [hqa.1, hqa.2]
    exact_mod_cast this
  rw [Int.ceil_eq_iff]
  constructor
  · have hcl := hr.close q
    have key : |q| * 2⁻¹ ^ 53 < q - (n - 1) := by
      have h1 : 0 < q - (n - 1) := by linarith
      have e : q - (n - 1) = ((d - c * (n - 1) : ℤ) : ℝ) / c := by
        rw [hq]; push_cast; field_simp
      have hne : d - c * (n - 1) ≠ 0 := by
        intro h0
        rw [e, h0] at h1
        simp at h1
      have hone : (1 : ℝ) ≤ |((d - c * (n - 1) : ℤ) : ℝ)| := by exact_mod_cast Int.one_le_abs hne
      rw [← abs_of_pos h1, e, hq, abs_div, abs_div, div_mul_eq_mul_div]
      apply div_lt_div_of_pos_right _ (by linarith)
      refine lt_of_lt_of_le ?_ hone
      calc |(d : ℝ)| * 2⁻¹ ^ 53 ≤ 2 ^ 51 * 2⁻¹ ^ 53 := by gcongr
        _ < 1 := by norm_num
    have := (abs_le.1 hcl).1
    rw [mul_comm] at key
    linarith
  · have := hr.mono hq1
    rwa [hr.fixes _ (isDouble_int hna)] at this

/-- The rounding errors of an entry add up to at most seven units for every step. -/
theorem arangeEntry_close {r : ℝ → ℝ} (hr : DoubleRounding r) (s h : ℝ) (k : ℕ) :
    |arangeEntry r s h k - (s + k * h)| ≤ k * (|s| + |h|) * 2⁻¹ ^ 50 := by
  unfold arangeEntry
  have hcl := hr.close
  obtain ⟨u, hu⟩ : ∃ u : ℝ, u = 2⁻¹ ^ 53 := ⟨_, rfl⟩
  obtain ⟨S, hS⟩ : ∃ S : ℝ, S = |s| + |h| := ⟨_, rfl⟩
  rw [← hS]
  have hu0 : 0 < u := by rw [hu]; positivity
  have hu1 : u ≤ 1 / 100 := by rw [hu]; norm_num
  have hS0 : 0 ≤ S := by rw [hS]; positivity
  have e50 : (2⁻¹ : ℝ) ^ 50 = 8 * u := by rw [hu]; norm_num
  rw [e50]
  rw [← hu] at hcl
  have hsh : |s + h| ≤ S := hS ▸ abs_add_le _ _
  have h1 := hcl (s + h)
  have h1' : |r (s + h) - (s + h)| ≤ u * S := le_trans h1 (by gcongr)
  split_ifs with hk0 hk1
  · subst hk0; simp
  · subst hk1
    simp only [Nat.cast_one, one_mul]
    have : 0 ≤ u * S := by positivity
    linarith
  · have hk : (1 : ℝ) ≤ k := by exact_mod_cast Nat.one_le_iff_ne_zero.2 hk0
    have hhS : |h| ≤ S := by rw [hS]; linarith [abs_nonneg s]
    have huS : 0 ≤ u * S := by positivity
    have huuS : u * (u * S) ≤ 1 / 100 * (u * S) := by gcongr
    -- the step
    have hd : |r (s + h) - s| ≤ S + u * S := by
      calc |r (s + h) - s| = |(r (s + h) - (s + h)) + h| := by ring_nf
        _ ≤ _ := abs_add_le _ _
        _ ≤ _ := by linarith
    have h2 := hcl (r (s + h) - s)
    have h2' : |r (r (s + h) - s) - h| ≤ 3 * (u * S) := by
      calc |r (r (s + h) - s) - h| = |(r (r (s + h) - s) - (r (s + h) - s)) + (r (s + h) - (s + h))| := by ring_nf
        _ ≤ _ := abs_add_le _ _
        _ ≤ u * (S + u * S) + u * S := by
            refine add_le_add (le_trans h2 ?_) h1'
            gcongr
        _ ≤ _ := by nlinarith
    set δ := r (r (s + h) - s)
    have hδ : |δ| ≤ S + 3 * (u * S) := by
      calc |δ| = |(δ - h) + h| := by ring_nf
        _ ≤ _ := abs_add_le _ _
        _ ≤ _ := by linarith
    have h3 := hcl (k * δ)
    have h3' : |r (k * δ) - k * h| ≤ k * (5 * (u * S)) := by
      calc |r (k * δ) - k * h| = |(r (k * δ) - k * δ) + k * (δ - h)| := by ring_nf
        _ ≤ _ := abs_add_le _ _
        _ ≤ u * (k * (S + 3 * (u * S))) + k * (3 * (u * S)) := by
            refine add_le_add (le_trans h3 ?_) ?_
            · rw [abs_mul, Nat.abs_cast]; gcongr
            · rw [abs_mul, Nat.abs_cast]; gcongr
        _ = k * (u * S + 3 * (u * (u * S)) + 3 * (u * S)) := by ring
        _ ≤ _ := by
            apply mul_le_mul_of_nonneg_left _ (by positivity)
            linarith
    have hsk : |s + k * h| ≤ k * S := by
      calc |s + k * h| ≤ |s| + k * |h| := by
            refine le_trans (abs_add_le _ _) ?_
            rw [abs_mul, Nat.abs_cast]
        _ ≤ _ := by rw [hS]; nlinarith [abs_nonneg s]
    have h4 := hcl (s + r (k * δ))
    have h4' : |s + r (k * δ)| ≤ k * S + k * (5 * (u * S)) := by
      calc |s + r (k * δ)| = |(s + k * h) + (r (k * δ) - k * h)| := by ring_nf
        _ ≤ _ := abs_add_le _ _
        _ ≤ _ := by linarith
    calc |r (s + r (k * δ)) - (s + k * h)| = |(r (s + r (k * δ)) - (s + r (k * δ))) + (r (k * δ) - k * h)| := by ring_nf
      _ ≤ _ := abs_add_le _ _
      _ ≤ u * (k * S + k * (5 * (u * S))) + k * (5 * (u * S)) := by
          refine add_le_add (le_trans h4 ?_) h3'
          gcongr
      _ = k * (u * S + 5 * (u * (u * S)) + 5 * (u * S)) := by ring
      _ ≤ k * (8 * (u * S)) := by
          apply mul_le_mul_of_nonneg_left _ (by positivity)
          linarith
      _ = _ := by ring

/-- On a grid the entries are those of exact arithmetic. -/
theorem arangeEntry_grid {r : ℝ → ℝ} (hr : DoubleRounding r) {a c j : ℤ} {k : ℕ} (ha : |a| ≤ 2 ^ 50) (hc : |c| ≤ 2 ^ 50)
    (hk : |k * c| ≤ 2 ^ 51) :
    arangeEntry r (a * 2 ^ j) (c * 2 ^ j) k = a * 2 ^ j + k * (c * 2 ^ j) := by
  have e1 : (a * 2 ^ j + c * 2 ^ j : ℝ) = (a + c : ℤ) * 2 ^ j := by push_cast; ring
  have f1 : r (a * 2 ^ j + c * 2 ^ j) = a * 2 ^ j + c * 2 ^ j := by
    rw [e1]
    refine hr.fixes _ (isDouble_scaled ?_)
    have := abs_add_le a c
    norm_num at *; omega
  unfold arangeEntry
  split_ifs with h0 h1
  · subst h0; simp
  · subst h1; rw [f1]; simp
  · rw [f1]
    have e2 : (a * 2 ^ j + c * 2 ^ j - a * 2 ^ j : ℝ) = c * 2 ^ j := by ring
    have e3 : (k * (c * 2 ^ j) : ℝ) = (k * c : ℤ) * 2 ^ j := by push_cast; ring
    have e4 : (a * 2 ^ j + (k * c : ℤ) * 2 ^ j : ℝ) = (a + k * c : ℤ) * 2 ^ j := by push_cast; ring
    rw [e2, hr.fixes _ (isDouble_scaled (by norm_num at *; omega)), e3, hr.fixes _ (isDouble_scaled (by norm_num at *; omega)), e4]
    refine hr.fixes _ (isDouble_scaled ?_)
    have := abs_add_le a (k * c)
    norm_num at *; omega

end Verif
