import Verif.Reactions.Balance
import Mathlib.Tactic

/-!
# `Fraction.limit_denominator` returns the closest fraction
-/

namespace Verif

/-- What holds at the break of the loop for `x = N / D`: the two bounds are neighbours around `x`. -/
structure LimitInv (M N D p0 q0 p1 q1 n d : ℤ) : Prop where
  det : p1 * q0 - p0 * q1 = 1 ∨ p1 * q0 - p0 * q1 = -1
  num : N = p1 * n + p0 * d
  den : D = q1 * n + q0 * d
  hq0 : 0 ≤ q0
  hq1 : 0 ≤ q1
  q0M : q0 ≤ M
  q1M : q1 ≤ M
  d0 : 0 ≤ d
  start : q1 = 0 → q0 = 1 ∧ d = D
  n0 : 0 < q1 → d < n
  q01 : 0 < q0 ∨ q1 = 1

/-- What the caller of the loop needs. -/
structure LimitEnd (M N D p0 q0 p1 q1 : ℤ) : Prop where
  det : p1 * q0 - p0 * q1 = 1 ∨ p1 * q0 - p0 * q1 = -1
  hq0 : 0 ≤ q0
  hq1 : 0 < q1
  q0M : q0 ≤ M
  q1M : q1 ≤ M
  q01 : 0 < q0 ∨ q1 = 1
  last : ∃ n d : ℤ, 0 < d ∧ N = p1 * n + p0 * d ∧ D = q1 * n + q0 * d ∧ M < q0 + n / d * q1

theorem limitLoop_end {M N D : ℤ} (hM : 1 ≤ M) (hD : M < D) (hc : IsCoprime N D) :
    ∀ (fuel : ℕ) (p0 q0 p1 q1 n d : ℤ), LimitInv M N D p0 q0 p1 q1 n d → d < fuel →
      ∃ p0' q0' p1' q1', limitLoop M fuel p0 q0 p1 q1 n d = (p0', q0', p1', q1') ∧ LimitEnd M N D p0' q0' p1' q1' := by
  intro fuel
  induction fuel with
  | zero =>
    intro p0 q0 p1 q1 n d h hd
    have := h.d0
    simp at hd
    omega
  | succ fuel ih =>
    intro p0 q0 p1 q1 n d h hd
    have hdpos : 0 < d := by
      rcases lt_or_eq_of_le h.d0 with h0 | h0
      · exact h0
      · exfalso
        subst h0
        have e1 := h.num
        have e2 := h.den
        simp at e1 e2
        have hn : IsUnit n := by
          apply hc.isUnit_of_dvd' (x := n)
          · exact ⟨p1, by rw [e1]; ring⟩
          · exact ⟨q1, by rw [e2]; ring⟩
        have hq1 : 0 < q1 := by
          rcases lt_or_eq_of_le h.hq1 with h1 | h1
          · exact h1
          · have := (h.start h1.symm).2
            omega
        have hn0 := h.n0 hq1
        have : n = 1 := by
          rcases Int.isUnit_iff.1 hn with h | h <;> omega
        rw [this] at e2
        have := h.q1M
        omega
    rw [limitLoop]
    split_ifs with hlt
    · refine ⟨p0, q0, p1, q1, rfl, h.det, h.hq0, ?_, h.q0M, h.q1M, h.q01, n, d, hdpos, h.num, h.den, hlt⟩
      rcases lt_or_eq_of_le h.hq1 with h1 | h1
      · exact h1
      · have := (h.start h1.symm).1
        rw [← h1, this] at hlt
        simp at hlt
        omega
    · have hr0 : 0 ≤ n - n / d * d := by
        have := Int.emod_nonneg n (ne_of_gt hdpos)
        rw [Int.emod_def] at this
        linarith
      have hrd : n - n / d * d < d := by
        have := Int.emod_lt_of_pos n hdpos
        rw [Int.emod_def] at this
        linarith
      have hq2 : 0 < q0 + n / d * q1 := by
        rcases lt_or_eq_of_le h.hq1 with h1 | h1
        · have hn := h.n0 h1
          have ha : 1 ≤ n / d := by
            rw [Int.le_ediv_iff_mul_le hdpos]
            omega
          have := h.hq0
          nlinarith
        · have := (h.start h1.symm).1
          rw [← h1, this]
          simp
      apply ih
      · refine ⟨?_, ?_, ?_, h.hq1, hq2.le, h.q1M, not_lt.1 hlt, hr0, ?_, fun _ => hrd, ?_⟩
        · rcases h.det with hd | hd
          · right; linarith [hd]
          · left; linarith [hd]
        · rw [h.num]; ring
        · rw [h.den]; ring
        · intro h; omega
        · rcases lt_or_eq_of_le h.hq1 with h1 | h1
          · exact .inl h1
          · right
            have := (h.start h1.symm).1
            rw [← h1, this]
            simp
      · push_cast at hd
        omega

/-- Two neighbours `P/Q`, `p/q` with `x` strictly between them and `Q + q > M`: every fraction with denominator at most
`M` is at least as far from `x` as one of them. -/
theorem neighbours_closest {M N D P Q p q u v s : ℤ} (hs : s = 1 ∨ s = -1) (hQ : 0 < Q) (hq : 0 < q) (hv : 0 < v)
    (hD : 0 < D) (hdet : p * Q - P * q = s) (hsum : M < Q + q) (hvM : v ≤ M) (h1 : 0 < s * (p * D - N * q))
    (h2 : 0 < s * (N * Q - P * D)) :
    |(p : ℚ) / q - N / D| ≤ |(u : ℚ) / v - N / D| ∨ |(P : ℚ) / Q - N / D| ≤ |(u : ℚ) / v - N / D| := by
  have hvv : s * (p * v - u * q) * Q + s * (u * Q - P * v) * q = v := by
    have : s * (p * v - u * q) * Q + s * (u * Q - P * v) * q = s * v * (p * Q - P * q) := by ring
    rw [this, hdet]
    rcases hs with rfl | rfl <;> ring
  have key : s * (p * v - u * q) ≤ 0 ∨ s * (u * Q - P * v) ≤ 0 := by
    by_contra hc
    push Not at hc
    nlinarith [hc.1, hc.2]
  have Qq : (0 : ℚ) < Q := by exact_mod_cast hQ
  have qq : (0 : ℚ) < q := by exact_mod_cast hq
  have vq : (0 : ℚ) < v := by exact_mod_cast hv
  have Dq : (0 : ℚ) < D := by exact_mod_cast hD
  have e1 : (p : ℚ) / q - N / D = (p * D - N * q) / (q * D) := by field_simp
  have e2 : (P : ℚ) / Q - N / D = -((N * Q - P * D) / (Q * D)) := by field_simp; ring
  have e3 : (u : ℚ) / v - p / q = -((p * v - u * q) / (v * q)) := by field_simp; ring
  have e4 : (u : ℚ) / v - P / Q = (u * Q - P * v) / (v * Q) := by field_simp
  rcases key with k | k
  · left
    rcases hs with rfl | rfl
    · have a1 : 0 < (p : ℚ) / q - N / D := by
        rw [e1]; apply div_pos _ (by positivity); exact_mod_cast (by linarith : 0 < p * D - N * q)
      have a2 : (0 : ℚ) ≤ (u : ℚ) / v - p / q := by
        rw [e3, neg_nonneg]; apply div_nonpos_of_nonpos_of_nonneg _ (by positivity)
        exact_mod_cast (by linarith : p * v - u * q ≤ 0)
      rw [abs_of_pos a1, abs_of_pos (by linarith)]
      linarith
    · have a1 : (p : ℚ) / q - N / D < 0 := by
        rw [e1]; apply div_neg_of_neg_of_pos _ (by positivity); exact_mod_cast (by linarith : p * D - N * q < 0)
      have a2 : (u : ℚ) / v - p / q ≤ 0 := by
        rw [e3, neg_nonpos]; apply div_nonneg _ (by positivity)
        exact_mod_cast (by linarith : 0 ≤ p * v - u * q)
      rw [abs_of_neg a1, abs_of_neg (by linarith)]
      linarith
  · right
    rcases hs with rfl | rfl
    · have a1 : (P : ℚ) / Q - N / D < 0 := by
        rw [e2, neg_lt_zero]; apply div_pos _ (by positivity); exact_mod_cast (by linarith : 0 < N * Q - P * D)
      have a2 : (u : ℚ) / v - P / Q ≤ 0 := by
        rw [e4]; apply div_nonpos_of_nonpos_of_nonneg _ (by positivity)
        exact_mod_cast (by linarith : u * Q - P * v ≤ 0)
      rw [abs_of_neg a1, abs_of_neg (by linarith)]
      linarith
    · have a1 : 0 < (P : ℚ) / Q - N / D := by
        rw [e2, neg_pos]; apply div_neg_of_neg_of_pos _ (by positivity)
        exact_mod_cast (by linarith : N * Q - P * D < 0)
      have a2 : 0 ≤ (u : ℚ) / v - P / Q := by
        rw [e4]; apply div_nonneg _ (by positivity)
        exact_mod_cast (by linarith : 0 ≤ u * Q - P * v)
      rw [abs_of_pos a1, abs_of_pos (by linarith)]
      linarith

theorem den_div_le {a b M : ℤ} (hb : 0 < b) (h : b ≤ M) : (((a : ℚ) / b).den : ℤ) ≤ M := by
  have h1 : (((a : ℚ) / b).den : ℤ) ∣ b := by
    rw [← Rat.divInt_eq_div]
    exact Rat.den_dvd a b
  exact (Int.le_of_dvd hb h1).trans h

/-- **The result is the fraction closest to `x` among those with denominator at most `M`.** -/
theorem limitDen_closest {M : ℤ} (hM : 1 ≤ M) (x : ℚ) :
    ((limitDen M x).den : ℤ) ≤ M ∧ ∀ y : ℚ, (y.den : ℤ) ≤ M → |limitDen M x - x| ≤ |y - x| := by
  unfold limitDen
  split_ifs with hd
  · refine ⟨hd, fun y _ => ?_⟩
    simp
  · push Not at hd
    have hD : (0 : ℤ) < x.den := by exact_mod_cast x.den_pos
    have hcop : IsCoprime x.num (x.den : ℤ) := by
      rw [Int.isCoprime_iff_gcd_eq_one]
      exact x.reduced
    obtain ⟨p0, q0, p1, q1, hl, he⟩ := limitLoop_end hM hd hcop (x.den + 1) 0 1 1 0 x.num x.den
      ⟨by norm_num, by ring, by ring, by norm_num, by norm_num, hM, by omega, hD.le, fun _ => ⟨rfl, rfl⟩, by norm_num,
        by norm_num⟩ (by push_cast; omega)
    rw [hl]
    simp only
    obtain ⟨n, d, dpos, hN, hDen, hlt⟩ := he.last
    have q1pos := he.hq1
    set k := (M - q0) / q1 with hk
    have hk0 : 0 ≤ k := Int.ediv_nonneg (by have := he.q0M; omega) he.hq1.le
    have hkM : q0 + k * q1 ≤ M := by
      have := Int.ediv_mul_le (M - q0) (ne_of_gt q1pos)
      rw [← hk] at this
      linarith
    have hkM' : M < q0 + k * q1 + q1 := by
      have := Int.lt_ediv_add_one_mul_self (M - q0) q1pos
      rw [← hk] at this
      linarith
    have hQ : 0 < q0 + k * q1 := by
      rcases he.q01 with h | h
      · have := mul_nonneg hk0 q1pos.le
        omega
      · rw [h] at hkM' ⊢
        have := he.hq0
        omega
    have hka : k < n / d := by
      by_contra hc
      push Not at hc
      have := mul_le_mul_of_nonneg_right hc q1pos.le
      omega
    have hnk : 0 < n - k * d := by
      have h1 : (k + 1) * d ≤ n / d * d := mul_le_mul_of_nonneg_right (by omega) dpos.le
      have h2 := Int.ediv_mul_le n (ne_of_gt dpos)
      linarith
    have hx : x = (x.num : ℚ) / ((x.den : ℤ) : ℚ) := by
      conv_lhs => rw [← Rat.num_div_den x]
      norm_cast
    have main : ∀ y : ℚ, (y.den : ℤ) ≤ M → |(p1 : ℚ) / q1 - x| ≤ |y - x| ∨
        |((p0 + k * p1 : ℤ) : ℚ) / ((q0 + k * q1 : ℤ) : ℚ) - x| ≤ |y - x| := by
      intro y hy
      have hy0 : y = (y.num : ℚ) / ((y.den : ℤ) : ℚ) := by
        conv_lhs => rw [← Rat.num_div_den y]
        norm_cast
      have hyd : (0 : ℤ) < y.den := by exact_mod_cast y.den_pos
      have := neighbours_closest (M := M) (N := x.num) (D := x.den) (P := p0 + k * p1) (Q := q0 + k * q1) (p := p1) (q := q1)
        (u := y.num) (v := y.den) (s := p1 * q0 - p0 * q1) he.det hQ q1pos hyd hD (by ring) (by linarith) hy ?_ ?_
      · rw [← hx, ← hy0] at this
        exact this
      · rw [hN, hDen]
        have : (p1 * q0 - p0 * q1) * (p1 * (q1 * n + q0 * d) - (p1 * n + p0 * d) * q1)
            = (p1 * q0 - p0 * q1) * (p1 * q0 - p0 * q1) * d := by ring
        rw [this]
        rcases he.det with h | h <;> rw [h] <;> linarith
      · rw [hN, hDen]
        have : (p1 * q0 - p0 * q1) * ((p1 * n + p0 * d) * (q0 + k * q1) - (p0 + k * p1) * (q1 * n + q0 * d))
            = (p1 * q0 - p0 * q1) * (p1 * q0 - p0 * q1) * (n - k * d) := by ring
        rw [this]
        rcases he.det with h | h <;> rw [h] <;> linarith
    split_ifs with hle
    · refine ⟨den_div_le q1pos he.q1M, fun y hy => ?_⟩
      rcases main y hy with h | h
      · exact h
      · exact hle.trans h
    · push Not at hle
      refine ⟨den_div_le hQ hkM, fun y hy => ?_⟩
      rcases main y hy with h | h
      · exact hle.le.trans h
      · exact h

/-- A fraction with a small denominator is recovered from any number close enough to it. -/
theorem limitDen_recovers {M : ℤ} (hM : 1 ≤ M) {x q : ℚ} (hq : (q.den : ℤ) ≤ M) (h : |x - q| < 1 / (2 * M * q.den)) :
    limitDen M x = q := by
  obtain ⟨h1, h2⟩ := limitDen_closest hM x
  by_contra hne
  set r := limitDen M x
  have hMq : (0 : ℚ) < M := by exact_mod_cast (by omega : (0 : ℤ) < M)
  have hr0 : (0 : ℚ) < r.den := by exact_mod_cast r.den_pos
  have hq0 : (0 : ℚ) < q.den := by exact_mod_cast q.den_pos
  have hrM : (r.den : ℚ) ≤ M := by exact_mod_cast h1
  have hclose : |r - q| < 1 / (M * q.den) := by
    have a := h2 q hq
    have b : |r - q| ≤ |r - x| + |x - q| := abs_sub_le r x q
    rw [abs_sub_comm q x] at a
    have : (1 : ℚ) / (M * q.den) = 1 / (2 * M * q.den) + 1 / (2 * M * q.den) := by field_simp; norm_num
    linarith
  have hfar : 1 / (M * q.den) ≤ |r - q| := by
    have e : r - q = ((r.num * q.den - q.num * r.den : ℤ) : ℚ) / (r.den * q.den) := by
      conv_lhs => rw [← Rat.num_div_den r, ← Rat.num_div_den q]
      push_cast
      field_simp
    have hz : r.num * q.den - q.num * r.den ≠ 0 := by
      intro h0
      rw [h0] at e
      simp at e
      exact hne (sub_eq_zero.1 e)
    have h1 : (1 : ℚ) ≤ |((r.num * q.den - q.num * r.den : ℤ) : ℚ)| := by
      rw [← Int.cast_abs]
      exact_mod_cast Int.one_le_abs hz
    rw [e, abs_div, abs_of_pos (mul_pos hr0 hq0)]
    calc (1 : ℚ) / (M * q.den) ≤ 1 / (r.den * q.den) :=
          one_div_le_one_div_of_le (mul_pos hr0 hq0) (mul_le_mul_of_nonneg_right hrM hq0.le)
      _ ≤ _ := by
          apply div_le_div_of_nonneg_right h1
          positivity
  linarith

end Verif
