import Verif.Props.CubicLimit
import Verif.Props.CubicFloat

/-!
# C85, C102 for `peng_robinson`

The first assignment of the vapour calculation is the formula of the liquid one, taken at 1, and the iterations are those of
Redlich and Kwong: after the first the number is about `1 / q`, whatever the pressure, and the later ones approach the largest
solution of the Redlich-Kwong shaped equation (not of Peng and Robinson's, C43).
-/

namespace Verif

open Set

/-- The first assignment of the vapour state. -/
theorem prStep_one {B q : ℝ} (hB : 0 < B) (hq : 0 < q) :
    prStep (pnum (1 + Real.sqrt 2)) (pnum (1 - Real.sqrt 2)) (pnum B) (pnum q) (pnum 1) =
      .ok (.num (B + (1 + 2 * B - B ^ 2) / q)) := by
  have h : q * B ≠ 0 := by positivity
  have h2 : Real.sqrt 2 * Real.sqrt 2 = 2 := Real.mul_self_sqrt (by norm_num)
  simp only [prStep, pnum, ok_mul, ok_div, ok_add, ok_sub, Val.add, Val.sub, Val.mul, Val.div, pyDiv_ne h]
  have e : (1 + (1 - Real.sqrt 2) * B) * (1 + (1 + Real.sqrt 2) * B) = 1 + 2 * B - B ^ 2 := by
    linear_combination (-B ^ 2) * h2
  rw [e]
  congr 2
  field_simp
  ring

theorem loop_from {B q z : ℝ} (hB : 0 < B) (fl : PyM (Val ℝ)) (n : ℕ) (hpos : ∀ k < n, 0 < (vapourMap B q)^[k] z) :
    iterateState c!"vapor" n (pnum B) (pnum q) (.ok (.num z)) fl = .ok (.num ((vapourMap B q)^[n] z)) := by
  have h : loop (vapourStep (pnum B) (pnum q)) n (.ok (.num z)) = .ok (.num ((vapourMap B q)^[n] z)) := by
    induction n with
    | zero => rfl
    | succ n ih =>
      rw [loop_succ, ih fun k hk => hpos k (by omega)]
      exact (vapourStep_num hB (hpos n (by omega))).trans (by rw [← Function.iterate_succ_apply' (vapourMap B q)])
  exact h

/-- The largest value of `(z - B) / (z (z + B))`. -/
theorem vapour_term_le {B z : ℝ} (hB : 0 < B) (hz : 0 < z) : B * ((z - B) / (z * (z + B))) ≤ 172 / 1000 := by
  rw [← mul_div_assoc, div_le_iff₀ (by positivity)]
  nlinarith [sq_nonneg (z - 2414 / 1000 * B), mul_pos hB hz]

/-- From a number near or above the first one one iteration leads above `1/2`. -/
theorem pr_second {B q z : ℝ} (hB : 0 < B) (hq : 0 < q) (hq2 : q ≤ 5 / 2 ∨ q ^ 2 * B ≤ 2 / 5) (hz : 1 / q ≤ z)
    (hzB : B ≤ z) : vapourMap B q z ∈ Icc (57 / 100 + B) (1 + B) := by
  have hqB : 0 < q * B := by positivity
  have h0 : 0 < 1 / q := by positivity
  have hz0 : 0 < z := by linarith
  have hz1 : 1 ≤ q * z := by
    have := mul_le_mul_of_nonneg_left hz hq.le
    rwa [mul_one_div, div_self hq.ne'] at this
  have h2 : (z - B) / (z * (z + B)) ≤ q := by
    rw [div_le_iff₀ (by positivity)]
    nlinarith [mul_pos hq hz0, mul_pos hq hB, mul_pos hqB hz0]
  have h3 : 0 ≤ (z - B) / (z * (z + B)) := div_nonneg (by linarith) (by positivity)
  have h4 := mul_le_mul_of_nonneg_left h2 hqB.le
  have h5 := mul_nonneg hqB.le h3
  have h6 := mul_le_mul_of_nonneg_left (vapour_term_le hB hz0) hq.le
  unfold vapourMap
  constructor
  · rcases hq2 with h | h <;> nlinarith
  · nlinarith

theorem pr_first_ge {B q : ℝ} (hB : 0 < B) (hB2 : B ≤ 2) (hq : 0 < q) : B + 1 / q ≤ B + (1 + 2 * B - B ^ 2) / q := by
  have : 1 / q ≤ (1 + 2 * B - B ^ 2) / q := by
    rw [div_le_div_iff_of_pos_right hq]
    nlinarith
  linarith

theorem pr_vapour_rate {B q : ℝ} (hB : 0 < B) (hB2 : B ≤ 2) (hq : 0 < q) (hq2 : q ≤ 5 / 2 ∨ q ^ 2 * B ≤ 2 / 5)
    (hA : q * B < 1 / 4)
    (fl : PyM (Val ℝ)) :
    ∃ Z, eosCubic B q Z = 0 ∧ (∀ w, eosCubic B q w = 0 → w ≤ Z) ∧ ∀ n : ℕ, ∃ z,
      iterateState c!"vapor" (n + 1 : ℕ) (pnum B) (pnum q) (.ok (.num (B + (1 + 2 * B - B ^ 2) / q))) fl = .ok (.num z) ∧
      |z - Z| ≤ (4 * (q * B)) ^ n * (1 / 2 + B) := by
  have hqB : 0 < q * B := by positivity
  obtain ⟨Z, hZ, h0, hmax, hnear⟩ := vapour_contracts hB hq hA
  have hz := pr_first_ge hB hB2 hq
  have hq1 : 0 < 1 / q := by positivity
  have h2 := pr_second hB hq hq2 (z := B + (1 + 2 * B - B ^ 2) / q) (by linarith) (by linarith)
  have hstay : ∀ y ∈ Ici (1 / 2 : ℝ), vapourMap B q y ∈ Ici (1 / 2 : ℝ) := by
    intro y hy
    have := vapourMap_ge hB hq hy
    show (1 / 2 : ℝ) ≤ _
    linarith
  have hrun := fun n => iterate_near (F := vapourMap B q) (S := Ici (1 / 2)) (L := 4 * (q * B)) (Z := Z)
    (x := vapourMap B q (B + (1 + 2 * B - B ^ 2) / q)) (by positivity) hstay hnear
    (show (1 / 2 : ℝ) ≤ _ by linarith [h2.1]) n
  refine ⟨Z, h0, hmax, fun n => ⟨_, loop_from hB fl (n + 1) (fun n _ => ?_), ?_⟩⟩
  · cases n with
    | zero => exact (show 0 < B + 1 / q by positivity).trans_le hz
    | succ n => exact lt_of_lt_of_le (by norm_num) (show (1 / 2 : ℝ) ≤ _ from (hrun n).1)
  · refine (hrun n).2.trans (mul_le_mul_of_nonneg_left ?_ (by positivity))
    rw [abs_le]
    constructor <;> linarith [hZ.1, hZ.2, h2.1, h2.2]

section
variable {R T P Tc Pc : ℝ} {u v : Sym}

/-- Vapour results of `peng_robinson` with at least one iteration: for `A = q B < 1/4`, `B ≤ 2` and `q ≤ 5/2` or
`q² B ≤ 2/5` they approach the largest solution of the Redlich-Kwong shaped equation. -/
theorem C85_peng_robinson_vapour (hv : v ∈ pressureUnits) (hR : 0 < R) (hT : 0 < T) (hP : 0 < P) (hTc : 0 < Tc)
    (hPc : 0 < Pc) {w α A B : ℝ}
    (hα' : α = 1 + (37464 / 100000 + 154226 / 100000 * w - 26992 / 100000 * w ^ 2) * (1 - Real.sqrt (T / Tc)))
    (hα : α ≠ 0) (hB' : B = 7780 / 100000 * (P / Pc) / (T / Tc)) (hA' : A = 45724 / 100000 * α ^ 2 * (P / Pc) / (T / Tc) ^ 2)
    (hB : B ≤ 2) (hA : A < 1 / 4) (hq : A ≤ 5 / 2 * B ∨ A ^ 2 ≤ 2 / 5 * B) :
    ∃ Z, CubicEOS 1 0 R T P (45724 / 100000 * R ^ 2 * Tc ^ 2 / Pc * α ^ 2) (7780 / 100000 * R * Tc / Pc) (Z * R * T / P) ∧
      (∀ y, CubicEOS 1 0 R T P (45724 / 100000 * R ^ 2 * Tc ^ 2 / Pc * α ^ 2) (7780 / 100000 * R * Tc / Pc)
        (y * R * T / P) → y ≤ Z) ∧
      ∀ n : ℕ, ∃ z, prCall u v T P Tc Pc c!"vapor" w (n + 1 : ℕ) = .ok (.num z) ∧ |z - Z| ≤ (4 * A) ^ n * (1 / 2 + B) := by
  have ht : 0 < T / Tc := by positivity
  have hev := fun n => pr_eval (u := u) hv hT hP hTc hPc c!"vapor" w n
  rw [← hα'] at hev
  have hα2 : 0 < α ^ 2 := by positivity
  have hiff := fun z => eos_iff (a := 45724 / 100000 * R ^ 2 * Tc ^ 2 / Pc * α ^ 2)
    (b := 7780 / 100000 * R * Tc / Pc) hR hT hP (by positivity) (by positivity) z
  have hBp : 0 < B := by rw [hB']; positivity
  have e0 : 7780 / 100000 * (P / Pc / (T / Tc)) = B := by rw [hB', mul_div_assoc]
  have e1 : 7780 / 100000 * R * Tc / Pc * P / (R * T) = B := by rw [hB']; field_simp
  have e2 : 45724 / 100000 * R ^ 2 * Tc ^ 2 / Pc * α ^ 2 / (7780 / 100000 * R * Tc / Pc * (R * T)) =
      45724 / 100000 * α ^ 2 / (7780 / 100000 * (T / Tc)) := by field_simp
  have e4 : 45724 / 100000 * α ^ 2 / (7780 / 100000 * (T / Tc)) * B = A := by rw [hA', hB']; field_simp
  simp only [hiff, e1, e2]
  simp only [e0] at hev
  have hqp : 0 < 45724 / 100000 * α ^ 2 / (7780 / 100000 * (T / Tc)) := by positivity
  generalize 45724 / 100000 * α ^ 2 / (7780 / 100000 * (T / Tc)) = q at *
  have hq2 : q ≤ 5 / 2 ∨ q ^ 2 * B ≤ 2 / 5 := by
    rw [← e4] at hq
    refine hq.imp (fun h => le_of_mul_le_mul_right h hBp) fun h => le_of_mul_le_mul_left (a := B) ?_ hBp
    linarith
  obtain ⟨Z, a1, a2, a3⟩ := pr_vapour_rate hBp hB hqp hq2 (by rw [e4]; exact hA)
    (prStep (pnum (1 + Real.sqrt 2)) (pnum (1 - Real.sqrt 2)) (pnum B) (pnum q) (pnum B))
  refine ⟨Z, a1, a2, fun n => ?_⟩
  obtain ⟨z, b1, b2⟩ := a3 n
  rw [e4] at b2
  exact ⟨z, by rw [hev, prStep_one hBp hqp]; exact b1, b2⟩

/-- Without iterations `peng_robinson` returns a number that does not approach 1 when the pressure goes to zero. -/
theorem C85_peng_robinson_first (hv : v ∈ pressureUnits) (hT : 0 < T) (hP : 0 < P) (hTc : 0 < Tc) (hPc : 0 < Pc)
    {w α B q : ℝ}
    (hα' : α = 1 + (37464 / 100000 + 154226 / 100000 * w - 26992 / 100000 * w ^ 2) * (1 - Real.sqrt (T / Tc)))
    (hα : α ≠ 0) (hB : B = 7780 / 100000 * (P / Pc) / (T / Tc)) (hq : q = 45724 / 100000 * α ^ 2 / (7780 / 100000 * (T / Tc))) :
    prCall u v T P Tc Pc c!"vapor" w 0 = .ok (.num (B + (1 + 2 * B - B ^ 2) / q)) := by
  have ht : 0 < T / Tc := by positivity
  have hev := pr_eval (u := u) hv hT hP hTc hPc c!"vapor" w 0
  have hα2 : 0 < α ^ 2 := by positivity
  rw [← hα', ← hq, show 7780 / 100000 * (P / Pc / (T / Tc)) = B by rw [hB, mul_div_assoc]] at hev
  rw [hev, prStep_one (by rw [hB]; positivity) (by rw [hq]; positivity)]
  rfl

end

/-- Four times the critical temperature and half the critical pressure: the results settle. -/
example : ∃ Z, CubicEOS 1 0 8 800 1 (45724 / 100000 * 8 ^ 2 * 200 ^ 2 / 2 * (1 + (37464 / 100000 + 154226 / 100000 * 0 -
      26992 / 100000 * 0 ^ 2) * (1 - Real.sqrt (800 / 200))) ^ 2) (7780 / 100000 * 8 * 200 / 2) (Z * 8 * 800 / 1) ∧
    ∀ n : ℕ, ∃ z, prCall c!"K" c!"atm" 800 1 200 2 c!"vapor" 0 (n + 1 : ℕ) = .ok (.num z) ∧
      |z - Z| ≤ (1 / 40) ^ n := by
  have h4 : Real.sqrt (800 / 200) = 2 := by
    rw [show (800 / 200 : ℝ) = 2 ^ 2 by norm_num]; exact Real.sqrt_sq (by norm_num)
  obtain ⟨Z, h1, -, h2⟩ := C85_peng_robinson_vapour (R := 8) (T := 800) (P := 1) (Tc := 200) (Pc := 2) (u := c!"K")
    (v := c!"atm") (w := 0) (by decide) (by norm_num) (by norm_num) (by norm_num) (by norm_num) (by norm_num) rfl
    (by rw [h4]; norm_num) rfl rfl (by norm_num) (by rw [h4]; norm_num) (by rw [h4]; norm_num)
  refine ⟨Z, h1, fun n => ?_⟩
  obtain ⟨z, a1, a2⟩ := h2 n
  refine ⟨z, a1, a2.trans ?_⟩
  rw [h4]
  refine (mul_le_mul_of_nonneg_right (pow_le_pow_left₀ (by norm_num) (by norm_num : _ ≤ (1 / 40 : ℝ)) n)
    (by norm_num)).trans ?_
  have : (0 : ℝ) < (1 / 40) ^ n := by positivity
  nlinarith

/-! ## The documented example -/

/-- `vapourMap` at the critical point, on rational numbers. -/
def criticalStep (z : ℚ) : ℚ :=
  1 + 7780 / 100000 - 45724 / 7780 * (7780 / 100000) * ((z - 7780 / 100000) / (z * (z + 7780 / 100000)))

theorem criticalStep_cast (z : ℚ) (n : ℕ) :
    (vapourMap (7780 / 100000) (45724 / 7780))^[n] z = ((criticalStep^[n] z : ℚ) : ℝ) := by
  induction n with
  | zero => rfl
  | succ n ih =>
    rw [Function.iterate_succ_apply', Function.iterate_succ_apply', ih]
    unfold vapourMap criticalStep
    push_cast
    ring

/-- The first number of the documented example. -/
def criticalFirst : ℚ := 7780 / 100000 + (1 + 2 * (7780 / 100000) - (7780 / 100000) ^ 2) / (45724 / 7780)

theorem critical_run : (∀ k < 6, 0 < criticalStep^[k] criticalFirst) ∧
    2315 / 10000 < criticalStep^[6] criticalFirst ∧ criticalStep^[6] criticalFirst < 2316 / 10000 := by decide +kernel

/-- The documented example of `peng_robinson` (six iterations at the critical point) is said to give 0.2351; it gives 0.2316,
which is more than 0.048 below every solution of the Peng-Robinson equation. -/
theorem C85_peng_robinson_documented (R : ℝ) (hR : 0 < R) (w : ℝ) :
    ∃ z, prCall c!"K" c!"kPa" 350 350 350 350 c!"vapor" w 6 = .ok (.num z) ∧ 2315 / 10000 < z ∧ z < 2316 / 10000 ∧
      ∀ y, PengRobinsonEOS R 350 350 350 350 w (y * R * 350 / 350) → z + 48 / 1000 < y := by
  obtain ⟨c1, c2, c3⟩ := critical_run
  have c2' : (2315 / 10000 : ℝ) < ((criticalStep^[6] criticalFirst : ℚ) : ℝ) := by
    have := (Rat.cast_lt (K := ℝ)).2 c2; push_cast at this; exact this
  have c3' : ((criticalStep^[6] criticalFirst : ℚ) : ℝ) < 2316 / 10000 := by
    have := (Rat.cast_lt (K := ℝ)).2 c3; push_cast at this; exact this
  refine ⟨((criticalStep^[6] criticalFirst : ℚ) : ℝ), ?_, c2', c3', ?_⟩
  · have hev := pr_eval (u := c!"K") (v := c!"kPa") (T := 350) (P := 350) (Tc := 350) (Pc := 350) (by decide) (by norm_num)
      (by norm_num) (by norm_num) (by norm_num) c!"vapor" w 6
    have e1 : (7780 / 100000 * (350 / 350 / (350 / 350)) : ℝ) = 7780 / 100000 := by norm_num
    have e2 : 45724 / 100000 * (1 + (37464 / 100000 + 154226 / 100000 * w - 26992 / 100000 * w ^ 2) *
      (1 - Real.sqrt (350 / 350))) ^ 2 / (7780 / 100000 * (350 / 350)) = 45724 / 7780 := by
      rw [div_self (by norm_num), Real.sqrt_one]; norm_num
    rw [e1, e2] at hev
    dsimp only at hev
    rw [prStep_one (by norm_num) (by norm_num)] at hev
    have e3 : (7780 / 100000 + (1 + 2 * (7780 / 100000) - (7780 / 100000) ^ 2) / (45724 / 7780) : ℝ) =
        ((criticalFirst : ℚ) : ℝ) := by
      unfold criticalFirst; push_cast; ring
    rw [hev, e3, ← criticalStep_cast]
    refine loop_from (by norm_num) _ 6 fun k hk => ?_
    rw [criticalStep_cast]
    exact_mod_cast c1 k hk
  · rintro y ⟨h1, h2, h3⟩
    have e0 : y * R * 350 / 350 = y * R := by ring
    rw [e0] at h1 h2 h3
    rw [show (350 / 350 : ℝ) = 1 by norm_num, Real.sqrt_one, sub_self, mul_zero, add_zero, one_pow, mul_one] at h3
    have hs : Real.sqrt 2 * Real.sqrt 2 = 2 := Real.mul_self_sqrt (by norm_num)
    have e1 : (7780 / 100000 * R * 350 / 350 : ℝ) = R * (7780 / 100000) := by ring
    rw [e1] at h1 h2 h3
    have e2 : (y * R + (1 - Real.sqrt 2) * (R * (7780 / 100000))) * (y * R + (1 + Real.sqrt 2) * (R * (7780 / 100000))) =
        R ^ 2 * (y ^ 2 + 2 * (7780 / 100000) * y - (7780 / 100000) ^ 2) := by
      linear_combination (-(R * (7780 / 100000)) ^ 2) * hs
    rw [e2] at h2 h3
    have d1 : y - 7780 / 100000 ≠ 0 := fun h => h1 (by rw [sub_eq_zero.1 h]; ring)
    have d2 : y ^ 2 + 2 * (7780 / 100000) * y - (7780 / 100000) ^ 2 ≠ 0 := fun h => h2 (by rw [h, mul_zero])
    have h4 : 1 = 1 / (y - 7780 / 100000) - 45724 / 100000 / (y ^ 2 + 2 * (7780 / 100000) * y - (7780 / 100000) ^ 2) := by
      have e3 : R * 350 / (y * R - R * (7780 / 100000)) = 350 * (1 / (y - 7780 / 100000)) := by
        rw [show y * R - R * (7780 / 100000) = R * (y - 7780 / 100000) by ring]
        field_simp
      have e4 : 45724 / 100000 * R ^ 2 * 350 ^ 2 / 350 / (R ^ 2 * (y ^ 2 + 2 * (7780 / 100000) * y - (7780 / 100000) ^ 2)) =
          350 * (45724 / 100000 / (y ^ 2 + 2 * (7780 / 100000) * y - (7780 / 100000) ^ 2)) := by
        field_simp
      rw [e3, e4] at h3
      linarith
    have h5 : (y - 7780 / 100000) * (y ^ 2 + 2 * (7780 / 100000) * y - (7780 / 100000) ^ 2) =
        (y ^ 2 + 2 * (7780 / 100000) * y - (7780 / 100000) ^ 2) - 45724 / 100000 * (y - 7780 / 100000) := by
      generalize y ^ 2 + 2 * (7780 / 100000) * y - (7780 / 100000) ^ 2 = s at *
      generalize y - 7780 / 100000 = t at *
      field_simp at h4
      linarith
    by_contra hcon
    rw [not_lt] at hcon
    have ht : 0 ≤ 28 / 100 - y := by linarith
    nlinarith [pow_nonneg ht 2, pow_nonneg ht 3]

/-! ## Rounding errors -/

section
variable {A : FloatArith}

theorem loop_from_fl {b p y : Fl A} (fl : PyM (Val (Fl A))) (n : ℕ)
    (h : ∀ k < n, (((fun z => 1 + b - p * b * ((z - b) / (z * (z + b))))^[k] y) *
      ((fun z => 1 + b - p * b * ((z - b) / (z * (z + b))))^[k] y + b)).val ≠ 0) :
    iterateState c!"vapor" n (pnum b) (pnum p) (.ok (.num y)) fl =
      .ok (.num ((fun z => 1 + b - p * b * ((z - b) / (z * (z + b))))^[n] y)) := by
  have hl : loop (vapourStep (pnum b) (pnum p)) n (.ok (.num y)) =
      .ok (.num ((fun z => 1 + b - p * b * ((z - b) / (z * (z + b))))^[n] y)) := by
    induction n with
    | zero => rfl
    | succ n ih =>
      rw [loop_succ, ih fun k hk => h k (by omega), vapourStep_fl (h n (by omega)), Function.iterate_succ_apply' _ n]
  exact hl

/-- The error of the first assignment: `1 + B - 1` loses digits when `B` is small. -/
theorem prStep_within {B q kb kq ks : ℝ} (hB : 0 < B) (hq : 0 < q) {b p s e : Fl A} (hb : Close kb b.val B)
    (hp : Close kq p.val q) (hks : 0 ≤ ks) (hs : Within ks (1 + Real.sqrt 2) s.val (1 + Real.sqrt 2))
    (he : Within ks (1 + Real.sqrt 2) e.val (1 - Real.sqrt 2)) :
    prStep (pnum s) (pnum e) (pnum b) (pnum p) (pnum 1) =
      .ok (.num (b + (1 + e * b) * (1 + s * b) * ((1 + b - 1) / (p * b)))) ∧
    Within (kq + 4 * kb + 2 * ks + 11 * A.ε) (B + (1 + 5 / 2 * B) ^ 2 * ((2 + B) / (q * B)))
      (b + (1 + e * b) * (1 + s * b) * ((1 + b - 1) / (p * b))).val (B + (1 + 2 * B - B ^ 2) / q) := by
  have hε := A.nonneg
  have hk := hb.nonneg
  have hkq := hp.nonneg
  have hqB : 0 < q * B := by positivity
  have c1 : Close (kq + kb + A.ε) (p * b).val (q * B) := near_mul hp hb
  constructor
  · have h : (p * b).val ≠ 0 := by
      rw [Ne, c1.eq_zero_iff]; exact hqB.ne'
    simp only [prStep, pnum, ok_mul, ok_div, ok_add, ok_sub, Val.add, Val.sub, Val.mul, Val.div, pyDiv_fl _ h]
  · have h2 : Real.sqrt 2 * Real.sqrt 2 = 2 := Real.mul_self_sqrt (by norm_num)
    have h3 : Real.sqrt 2 ≤ 3 / 2 := Real.sqrt_le_iff.2 (by norm_num)
    have h4 := Real.sqrt_nonneg 2
    have hbW : Within kb B b.val B := .of_close hb (by rw [abs_of_pos hB])
    have w1 : Within (ks + kb + A.ε + A.ε) (1 + (1 + Real.sqrt 2) * B) (1 + e * b).val (1 + (1 - Real.sqrt 2) * B) :=
      (Within.exact (by positivity) (by simp)).fl_add (he.fl_mul hbW)
    have w2 : Within (ks + kb + A.ε + A.ε) (1 + (1 + Real.sqrt 2) * B) (1 + s * b).val (1 + (1 + Real.sqrt 2) * B) :=
      (Within.exact (by positivity) (by simp)).fl_add (hs.fl_mul hbW)
    have w3 := w1.fl_mul (A := A) w2
    have w4 : Within (kb + A.ε) (1 + B) (1 + b).val (1 + B) := (Within.exact hk (by simp)).fl_add hbW
    have w5 : Within (kb + A.ε + A.ε) (1 + B + 1) (1 + b - 1).val (1 + B - 1) :=
      w4.fl_sub (Within.exact (by positivity) (by simp))
    have w6 := w3.fl_mul (A := A) (w5.fl_div (A := A) c1 hqB.ne')
    have w7 := (hbW.mono (l := kq + 4 * kb + 2 * ks + 10 * A.ε) (by linarith)).fl_add (A := A)
      (w6.mono (l := kq + 4 * kb + 2 * ks + 10 * A.ε) (by linarith))
    rw [abs_of_pos hqB] at w7
    have e1 : B + (1 + (1 - Real.sqrt 2) * B) * (1 + (1 + Real.sqrt 2) * B) * ((1 + B - 1) / (q * B)) =
        B + (1 + 2 * B - B ^ 2) / q := by
      rw [show (1 + (1 - Real.sqrt 2) * B) * (1 + (1 + Real.sqrt 2) * B) = 1 + 2 * B - B ^ 2 by
        linear_combination (-B ^ 2) * h2]
      field_simp
      ring
    rw [e1] at w7
    refine (w7.mono (l := kq + 4 * kb + 2 * ks + 11 * A.ε) (by linarith)).weaken (by positivity) ?_
    have h5 : 1 + (1 + Real.sqrt 2) * B ≤ 1 + 5 / 2 * B := by nlinarith
    have h6 : (1 + (1 + Real.sqrt 2) * B) * (1 + (1 + Real.sqrt 2) * B) ≤ (1 + 5 / 2 * B) ^ 2 := by
      rw [sq]; exact mul_le_mul h5 h5 (by positivity) (by positivity)
    have h7 := mul_le_mul_of_nonneg_right h6 (show 0 ≤ (2 + B) / (q * B) by positivity)
    rw [show 1 + B + 1 = 2 + B by ring]
    linarith

/-- The vapour iteration of `peng_robinson` in floating point numbers. -/
theorem pr_disturbed {B q kb kq ks κ δ : ℝ} (hB : 0 < B) (hB2 : B ≤ 2) (hq : 0 < q) (hq2 : q ≤ 5 / 2 ∨ q ^ 2 * B ≤ 2 / 5)
    (hA : q * B < 1 / 4) {b p s e : Fl A} (hb : Close kb b.val B) (hp : Close kq p.val q) (hks : 0 ≤ ks)
    (hs : Within ks (1 + Real.sqrt 2) s.val (1 + Real.sqrt 2)) (he : Within ks (1 + Real.sqrt 2) e.val (1 - Real.sqrt 2))
    (hκ : κ = kq + 4 * kb + 2 * ks + 11 * A.ε) (hδ : δ = 2 * κ * (2 + B + q))
    (hfirst : 2 * κ * (B + (1 + 5 / 2 * B) ^ 2 * ((2 + B) / (q * B))) ≤ B) (hδ1 : δ ≤ (1 - 4 * (q * B)) / 2)
    (hδ2 : δ ≤ 7 / 100) (fl : PyM (Val (Fl A))) :
    ∃ Z, eosCubic B q Z = 0 ∧ (∀ w, eosCubic B q w = 0 → w ≤ Z) ∧ ∀ n : ℕ, ∃ z : Fl A,
      iterateState c!"vapor" (n + 1 : ℕ) (pnum b) (pnum p) (prStep (pnum s) (pnum e) (pnum b) (pnum p) (pnum 1)) fl =
        .ok (.num z) ∧
      |z.val - Z| ≤ (4 * (q * B)) ^ n * (1 / 2 + B + δ) + δ / (1 - 4 * (q * B)) := by
  obtain ⟨Z, hZ, h0, hmax, hnear⟩ := vapour_contracts hB hq hA
  obtain ⟨hrw, hw⟩ := prStep_within hB hq hb hp hks hs he
  have hqB : 0 < q * B := by positivity
  have hε := A.nonneg
  have hkb := hb.nonneg
  have hkq := hp.nonneg
  have hκ0 : 0 ≤ κ := by rw [hκ]; positivity
  have hκ1 : κ ≤ 1 := by nlinarith [mul_nonneg hκ0 hB.le, mul_nonneg hκ0 hq.le]
  have hδ0 : 0 ≤ δ := by rw [hδ]; positivity
  rw [hrw]
  rw [← hκ] at hw
  generalize b + (1 + e * b) * (1 + s * b) * ((1 + b - 1) / (p * b)) = y at hw ⊢
  have hy := abs_le.1 ((hw.2.trans (mul_le_mul_of_nonneg_right (exp_sub_one_le hκ0 hκ1) (by positivity))).trans hfirst)
  have hge := pr_first_ge hB hB2 hq
  have hq1 : 0 < 1 / q := by positivity
  have hBq : 2 * B ≤ 1 / q := by
    rw [le_div_iff₀ hq]; nlinarith
  have hyq : 1 / q ≤ y.val := by linarith
  have hyB : B ≤ y.val := by linarith
  have h2 := pr_second hB hq hq2 hyq hyB
  have hstep : ∀ z : Fl A, B ≤ z.val ∨ 1 / 2 ≤ z.val →
      |(1 + b - p * b * ((z - b) / (z * (z + b)))).val - vapourMap B q z.val| ≤ δ := by
    intro z hz
    have hz0 : 0 < z.val := by rcases hz with h | h <;> linarith
    refine (vapourStep_within hB hb hkq (Within.of_close hp (M := q) (by rw [abs_of_pos hq])) hz0).2.trans ?_
    rw [hδ]
    refine mul_le_mul ((exp_sub_one_le (by positivity) ?_).trans ?_) ?_ (by positivity) (by positivity)
    · linarith
    · linarith
    · rcases hz with h | h
      · have : q * B / z.val ≤ q := by rw [div_le_iff₀ hz0]; nlinarith
        linarith
      · have : q * B / z.val ≤ 1 := by rw [div_le_iff₀ hz0]; nlinarith
        linarith
  have h3 := abs_le.1 (hstep y (.inl hyB))
  have hrun := iterate_disturbed (F := vapourMap B q) (S := Ici (1 / 2)) (L := 4 * (q * B)) (δ := δ) (Z := Z)
    (z := fun n => ((fun z => 1 + b - p * b * ((z - b) / (z * (z + b))))^[n]
      (1 + b - p * b * ((y - b) / (y * (y + b))))).val) (by positivity) (by linarith)
    hδ0 (by
      show (1 / 2 : ℝ) ≤ (1 + b - p * b * ((y - b) / (y * (y + b)))).val
      linarith [h2.1]) ?_ ?_ hnear
  · refine ⟨Z, h0, hmax, fun n => ⟨_, loop_from_fl fl (n + 1) (fun k _ => ?_), ?_⟩⟩
    · have hpos : 0 < ((fun z => 1 + b - p * b * ((z - b) / (z * (z + b))))^[k] y).val := by
        cases k with
        | zero => exact hB.trans_le hyB
        | succ k => exact lt_of_lt_of_le (by norm_num) (show (1 / 2 : ℝ) ≤ _ from (hrun k).1)
      rw [Ne, (vapour_denominator hB hb hpos).eq_zero_iff]
      positivity
    · refine (hrun n).2.trans (add_le_add_left (mul_le_mul_of_nonneg_left ?_ (by positivity)) _)
      simp only [Function.iterate_zero_apply]
      rw [abs_le]
      constructor <;> linarith [hZ.1, hZ.2, h2.1, h2.2]
  · intro n hn
    simp only [Function.iterate_succ_apply']
    exact hstep _ (.inr hn)
  · intro y hy w hw
    have h1 := vapourMap_ge hB hq hy
    have h2 := (abs_le.1 hw).1
    show (1 / 2 : ℝ) ≤ w
    linarith

/-- The first assignment of the liquid state, and its error. -/
theorem prStep_liquid {B q kb kq ks κ L Z : ℝ} (hB : 0 < B) (hq : 0 < q) (hZ : 0 < Z) (hZ1 : Z ≤ 1 / 3)
    (h0 : eosCubic B q Z = 0) (hL : L = (4 * Z + B * (1 + B)) / (q * B)) (hL1 : L < 1) {b p s e : Fl A}
    (hb : Close kb b.val B) (hp : Close kq p.val q) (hks : 0 ≤ ks)
    (hs : Within ks (1 + Real.sqrt 2) s.val (1 + Real.sqrt 2)) (he : Within ks (1 + Real.sqrt 2) e.val (1 - Real.sqrt 2))
    (hκ : kq + 4 * kb + 2 * ks + 11 * A.ε ≤ κ) (hκ1 : 20 * κ ≤ 1) :
    prStep (pnum s) (pnum e) (pnum b) (pnum p) (pnum b) =
      .ok (.num (b + (b + e * b) * (b + s * b) * ((1 + b - b) / (p * b)))) ∧
    |(b + (b + e * b) * (b + s * b) * ((1 + b - b) / (p * b))).val - liquidMap B q b.val| ≤ 20 * κ * Z := by
  have hε := A.nonneg
  have hk := hb.nonneg
  have hkq := hp.nonneg
  have hqB : 0 < q * B := by positivity
  have hBZ := liquid_above hB hq hZ h0
  have hκ0 : 0 ≤ κ := le_trans (by positivity) hκ
  have c1 : Close (kq + kb + A.ε) (p * b).val (q * B) := near_mul hp hb
  constructor
  · have h : (p * b).val ≠ 0 := by
      rw [Ne, c1.eq_zero_iff]; exact hqB.ne'
    simp only [prStep, pnum, ok_mul, ok_div, ok_add, ok_sub, Val.add, Val.sub, Val.mul, Val.div, pyDiv_fl _ h]
  · have h2 : Real.sqrt 2 * Real.sqrt 2 = 2 := Real.mul_self_sqrt (by norm_num)
    have h3 : Real.sqrt 2 ≤ 3 / 2 := Real.sqrt_le_iff.2 (by norm_num)
    have h4 := Real.sqrt_nonneg 2
    have hq5 : 5 ≤ q := by
      rw [hL, div_lt_one hqB] at hL1
      have : 5 * B ≤ q * B := by nlinarith
      exact le_of_mul_le_mul_right this hB
    have hbW : Within kb B b.val B := .of_close hb (by rw [abs_of_pos hB])
    have w1 : Within (ks + kb + A.ε + A.ε) (B + (1 + Real.sqrt 2) * B) (b + e * b).val (B + (1 - Real.sqrt 2) * B) :=
      (hbW.mono (by linarith)).fl_add (he.fl_mul hbW)
    have w2 : Within (ks + kb + A.ε + A.ε) (B + (1 + Real.sqrt 2) * B) (b + s * b).val (B + (1 + Real.sqrt 2) * B) :=
      (hbW.mono (by linarith)).fl_add (hs.fl_mul hbW)
    have w3 := w1.fl_mul (A := A) w2
    have w4 : Within (kb + A.ε) (1 + B) (1 + b).val (1 + B) := (Within.exact hk (by simp)).fl_add hbW
    have w5 : Within (kb + A.ε + A.ε) (1 + B + B) (1 + b - b).val (1 + B - B) := w4.fl_sub (hbW.mono (by linarith))
    have w6 := w3.fl_mul (A := A) (w5.fl_div (A := A) c1 hqB.ne')
    have w7 := (hbW.mono (l := kq + 4 * kb + 2 * ks + 10 * A.ε) (by linarith)).fl_add (A := A)
      (w6.mono (l := kq + 4 * kb + 2 * ks + 10 * A.ε) (by linarith))
    rw [abs_of_pos hqB] at w7
    have e1 : B + (B + (1 - Real.sqrt 2) * B) * (B + (1 + Real.sqrt 2) * B) * ((1 + B - B) / (q * B)) = liquidMap B q B := by
      rw [show (B + (1 - Real.sqrt 2) * B) * (B + (1 + Real.sqrt 2) * B) = B * (B + B) by
        linear_combination (-B ^ 2) * h2]
      rfl
    rw [e1] at w7
    have w8 := (w7.mono (l := κ) (by linarith)).2
    have h5 : (B + (1 + Real.sqrt 2) * B) * (B + (1 + Real.sqrt 2) * B) ≤ 49 / 4 * B ^ 2 := by
      have : B + (1 + Real.sqrt 2) * B ≤ 7 / 2 * B := by nlinarith
      have := mul_le_mul this this (by positivity) (by positivity)
      linarith
    have h6 : B + (B + (1 + Real.sqrt 2) * B) * (B + (1 + Real.sqrt 2) * B) * ((1 + B + B) / (q * B)) ≤ 6 * Z := by
      have h7 := mul_le_mul_of_nonneg_right h5 (show 0 ≤ (1 + B + B) / (q * B) by positivity)
      have h8 : 49 / 4 * B ^ 2 * ((1 + B + B) / (q * B)) ≤ 5 * B := by
        rw [← mul_div_assoc, div_le_iff₀ hqB]
        nlinarith [mul_pos hB hB, mul_le_mul_of_nonneg_right hq5 (mul_pos hB hB).le]
      linarith
    have h7 : |(b + (b + e * b) * (b + s * b) * ((1 + b - b) / (p * b))).val - liquidMap B q B| ≤ 12 * κ * Z := by
      refine w8.trans ?_
      rw [show 12 * κ * Z = 2 * κ * (6 * Z) by ring]
      exact mul_le_mul (exp_sub_one_le hκ0 (by linarith)) h6 (by positivity) (by positivity)
    obtain ⟨hbZ, hb0, hb1⟩ := liquid_start hB hq hZ h0 (κ := κ) hb (by linarith) (by linarith)
    obtain ⟨s1, s2⟩ := liquid_slope_zero (r := 2 * Z) hB (by linarith) (x := b.val) ⟨hb0, by linarith [(abs_le.1 hbZ).2]⟩
      (y := B) ⟨hB.le, by linarith⟩
    have h8 : |liquidMap B q B - liquidMap B q b.val| ≤ 2 * kb * B := by
      rw [liquidMap_sub, mul_div_assoc, abs_mul, abs_of_nonneg (div_nonneg s1 hqB.le)]
      have h9 : (b.val + B - (b.val ^ 2 + b.val * B + B ^ 2) + B * (1 + B)) / (q * B) ≤ 1 := by
        rw [hL, div_lt_one hqB] at hL1
        rw [div_le_one hqB]
        linarith
      have h10 := hb.abs_sub_le
      rw [abs_of_pos hB, abs_sub_comm] at h10
      refine (mul_le_of_le_one_right (abs_nonneg _) h9).trans (h10.trans ?_)
      exact mul_le_mul_of_nonneg_right (exp_sub_one_le hk (by linarith)) hB.le
    have h9 : 2 * kb * B ≤ 8 * κ * Z := mul_le_mul (by linarith) hBZ hB.le (by positivity)
    have h10 := abs_sub_le (b + (b + e * b) * (b + s * b) * ((1 + b - b) / (p * b))).val (liquidMap B q B)
      (liquidMap B q b.val)
    linarith

/-- `peng_robinson` with floating point temperatures in the unit `u` and pressures in the unit `v`. -/
noncomputable def prCallFl (u v : Sym) (T P Tc Pc : Fl A) (state : Sym) (w : Fl A) (n : ℤ) : PyM (Val (Fl A)) :=
  pengRobinson (qU .temperature T u) (qU .pressure P v) (qU .temperature Tc u) (qU .pressure Pc v) state w n

/-- The reduced parameters of `peng_robinson` in floating point numbers; `Q` is the size of the terms of `q`. -/
theorem pr_eval_fl {u v : Sym} (hv : v ∈ pressureUnits) {T P Tc Pc : Fl A} (hT : 0 < T.val) (hTc : 0 < Tc.val)
    (hPc : 0 < Pc.val) (w : Fl A) :
    ∃ b q s e : Fl A, Close (5 * A.ε) b.val (7780 / 100000 * ((P.val / Pc.val) / (T.val / Tc.val))) ∧
    Within (24 * A.ε) (45724 / 100000 * (1 + (37464 / 100000 + 154226 / 100000 * |w.val| + 26992 / 100000 * w.val ^ 2) *
        (1 + Real.sqrt (T.val / Tc.val))) ^ 2 / (7780 / 100000 * (T.val / Tc.val))) q.val
      (45724 / 100000 * (1 + (37464 / 100000 + 154226 / 100000 * w.val - 26992 / 100000 * w.val ^ 2) *
        (1 - Real.sqrt (T.val / Tc.val))) ^ 2 / (7780 / 100000 * (T.val / Tc.val))) ∧
    Within (5 / 2 * A.ε) (1 + Real.sqrt 2) s.val (1 + Real.sqrt 2) ∧
    Within (5 / 2 * A.ε) (1 + Real.sqrt 2) e.val (1 - Real.sqrt 2) ∧
    ∀ state n, prCallFl u v T P Tc Pc state w n = iterateState state n (pnum b) (pnum q)
      (prStep (pnum s) (pnum e) (pnum b) (pnum q) (pnum 1)) (prStep (pnum s) (pnum e) (pnum b) (pnum q) (pnum b)) := by
  obtain ⟨ht, h1, h2⟩ := reduced_fl (P := P) hT hTc hPc (7780 / 100000)
  have he := A.nonneg
  have ht0 : 0 < T.val / Tc.val := by positivity
  have ht1 : 0 < (T / Tc).val := by
    obtain ⟨t, -, e⟩ := ht
    rw [e]; positivity
  have hlit : ∀ (r : ℚ) (y : ℝ), (r : ℝ) = y → 0 ≤ y → Within A.ε y ((r : ℚ) : Fl A).val y := by
    rintro r y rfl hy
    exact .of_close (lit_fl_close r) (by rw [abs_of_nonneg hy])
  have hsq : ∀ {x : Fl A} {y : ℝ}, Close A.ε x.val y → 0 < x.val → 0 ≤ y →
      Within (3 / 2 * A.ε) (Real.sqrt y) (⟨A.pow x.val (1 / 2)⟩ : Fl A).val (Real.sqrt y) := by
    intro x y hc hx hy
    have := near_pow (A := A) hc (1 / 2)
    rw [pow_fl_pos hx, pow_real_half hy] at this
    have h : Close (|((1 / 2 : ℚ) : ℝ)| * A.ε + A.ε) (A.pow x.val (1 / 2)) (Real.sqrt y) := this
    exact .of_close (h.mono (by norm_num; linarith)) (by rw [abs_of_nonneg (Real.sqrt_nonneg _)])
  have c2 : Close A.ε ((2 : ℚ) : Fl A).val 2 := by simpa using lit_fl_close (A := A) 2
  have p2 : 0 < ((2 : ℚ) : Fl A).val := by
    obtain ⟨t, -, e⟩ := c2
    rw [e]; positivity
  have v1 := hsq c2 p2 (by norm_num)
  have v2 : Within (3 / 2 * A.ε + A.ε) (1 + Real.sqrt 2) (1 + (⟨A.pow ((2 : ℚ) : Fl A).val (1 / 2)⟩ : Fl A)).val
    (1 + Real.sqrt 2) := (Within.exact (by positivity) (by simp)).fl_add v1
  have v3 : Within (3 / 2 * A.ε + A.ε) (1 + Real.sqrt 2) (1 - (⟨A.pow ((2 : ℚ) : Fl A).val (1 / 2)⟩ : Fl A)).val
    (1 - Real.sqrt 2) := (Within.exact (by positivity) (by simp)).fl_sub v1
  have w2 : Within (3 / 2 * A.ε + A.ε) (1 + Real.sqrt (T.val / Tc.val)) (1 - (⟨A.pow (T / Tc).val (1 / 2)⟩ : Fl A)).val
    (1 - Real.sqrt (T.val / Tc.val)) := (Within.exact (by positivity) (by simp)).fl_sub (hsq ht ht1 ht0.le)
  have w3 : Within (A.ε + 0 + A.ε) (154226 / 100000 * |w.val|) (((154226 / 100000 : ℚ) : Fl A) * w).val
      (154226 / 100000 * w.val) := (hlit _ _ (by norm_num) (by norm_num)).fl_mul (Within.exact le_rfl le_rfl)
  have w4 := ((hlit (37464 / 100000) (37464 / 100000) (by norm_num) (by norm_num)).mono (l := A.ε + 0 + A.ε)
    (by linarith)).fl_add (A := A) w3
  have w5 : Within (2 * 0 + A.ε) (|w.val| ^ 2) (⟨A.pow w.val 2⟩ : Fl A).val (w.val ^ 2) :=
    (Within.exact le_rfl le_rfl).fl_sq
  have w6 := (hlit (26992 / 100000) (26992 / 100000) (by norm_num) (by norm_num)).fl_mul (A := A) w5
  have w7 := w4.fl_sub (A := A) (w6.mono (by linarith))
  have w8 := (Within.exact (κ := A.ε + 0 + A.ε + A.ε + A.ε + (3 / 2 * A.ε + A.ε) + A.ε) (x := 1) (M := 1) (by positivity)
    (by simp)).fl_add (A := A) (w7.fl_mul (A := A) w2)
  have w9 := (hlit (45724 / 100000) (45724 / 100000) (by norm_num) (by norm_num)).fl_mul (A := A) (w8.fl_sq (A := A))
  have hne : ((7780 / 100000 : ℚ) : ℝ) * (T.val / Tc.val) ≠ 0 := by push_cast; positivity
  have e2 : ((7780 / 100000 : ℚ) : ℝ) = 7780 / 100000 := by norm_num
  have w10 := w9.fl_div (A := A) h2 hne
  rw [e2, abs_of_pos (show 0 < 7780 / 100000 * (T.val / Tc.val) by positivity), sq_abs] at w10
  refine ⟨_, ⟨_⟩, _, _, by push_cast at h1; exact h1, w10.mono (by linarith), v2.mono (by linarith), v3.mono (by linarith),
    fun state n => ?_⟩
  have hne' : (((7780 / 100000 : ℚ) : Fl A) * (T / Tc)).val ≠ 0 := fun h => hne (h2.eq_zero_iff.1 h)
  unfold prCallFl pengRobinson
  rw [temp_ratio_fl u T Tc hTc.ne', pres_ratio_fl hv P Pc hPc.ne']
  simp only [pnum, ok_pow, ok_mul, ok_div, ok_add, ok_sub, Val.pow, pow_fl_pos ht1, pow_fl_pos p2, pow_fl_two, Val.mul, Val.div,
    Val.add, Val.sub, pyDiv_fl _ ht1.ne', pyDiv_fl _ hne']
  rfl

/-- Peng-Robinson, vapour, in floating point numbers: as C85_peng_robinson_vapour, with an error that does not grow with the
iterations.  `Q / a` is the cancellation in the computation of `q`; `hfirst` keeps the cancellation in `1 + B - 1` small. -/
theorem C102_peng_robinson_vapour {R : ℝ} (hR : 0 < R) {u v : Sym} (hv : v ∈ pressureUnits) {T P Tc Pc : Fl A}
    (hT : 0 < T.val) (hP : 0 < P.val) (hTc : 0 < Tc.val) (hPc : 0 < Pc.val) {w : Fl A} {α a B Q κ δ : ℝ}
    (hα' : α = 1 + (37464 / 100000 + 154226 / 100000 * w.val - 26992 / 100000 * w.val ^ 2) * (1 - Real.sqrt (T.val / Tc.val)))
    (hα : α ≠ 0) (hB : B = 7780 / 100000 * (P.val / Pc.val) / (T.val / Tc.val))
    (ha : a = 45724 / 100000 * α ^ 2 * (P.val / Pc.val) / (T.val / Tc.val) ^ 2)
    (hQ : Q = 45724 / 100000 * (1 + (37464 / 100000 + 154226 / 100000 * |w.val| + 26992 / 100000 * w.val ^ 2) *
      (1 + Real.sqrt (T.val / Tc.val))) ^ 2 * (P.val / Pc.val) / (T.val / Tc.val) ^ 2)
    (hB2 : B ≤ 2) (ha4 : a < 1 / 4) (hq2 : a ≤ 5 / 2 * B ∨ a ^ 2 ≤ 2 / 5 * B) (hκ : κ = (96 * (Q / a) + 36) * A.ε)
    (hδ : δ = 2 * κ * (2 + B + a / B)) (hfirst : 2 * κ * (B + (1 + 5 / 2 * B) ^ 2 * ((2 + B) / a)) ≤ B)
    (hδ1 : δ ≤ (1 - 4 * a) / 2) (hδ2 : δ ≤ 7 / 100) :
    ∃ Z, CubicEOS 1 0 R T.val P.val (45724 / 100000 * R ^ 2 * Tc.val ^ 2 / Pc.val * α ^ 2)
        (7780 / 100000 * R * Tc.val / Pc.val) (Z * R * T.val / P.val) ∧
      (∀ y, CubicEOS 1 0 R T.val P.val (45724 / 100000 * R ^ 2 * Tc.val ^ 2 / Pc.val * α ^ 2)
        (7780 / 100000 * R * Tc.val / Pc.val) (y * R * T.val / P.val) → y ≤ Z) ∧
      ∀ n : ℕ, ∃ z : Fl A, prCallFl u v T P Tc Pc c!"vapor" w (n + 1 : ℕ) = .ok (.num z) ∧
        |z.val - Z| ≤ (4 * a) ^ n * (1 / 2 + B + δ) + δ / (1 - 4 * a) := by
  have ht : 0 < T.val / Tc.val := by positivity
  obtain ⟨b, q, s, e, c1, c2, cs, ce, c3⟩ := pr_eval_fl (u := u) (P := P) hv hT hTc hPc w
  rw [mul_div_assoc] at hB
  rw [← hα'] at c2
  generalize 1 + (37464 / 100000 + 154226 / 100000 * |w.val| + 26992 / 100000 * w.val ^ 2) *
    (1 + Real.sqrt (T.val / Tc.val)) = α' at *
  have hα2 : 0 < α ^ 2 := by positivity
  have hiff := fun z => eos_iff (a := 45724 / 100000 * R ^ 2 * Tc.val ^ 2 / Pc.val * α ^ 2)
    (b := 7780 / 100000 * R * Tc.val / Pc.val) hR hT hP (by positivity) (by positivity) z
  have e1 : 7780 / 100000 * R * Tc.val / Pc.val * P.val / (R * T.val) = B := by rw [hB]; field_simp
  have e2 : 45724 / 100000 * R ^ 2 * Tc.val ^ 2 / Pc.val * α ^ 2 / (7780 / 100000 * R * Tc.val / Pc.val * (R * T.val)) =
      45724 / 100000 * α ^ 2 / (7780 / 100000 * (T.val / Tc.val)) := by field_simp
  have e4 : 45724 / 100000 * α ^ 2 / (7780 / 100000 * (T.val / Tc.val)) * B = a := by
    rw [ha, hB]; field_simp
  have e5 : 45724 / 100000 * α' ^ 2 / (7780 / 100000 * (T.val / Tc.val)) * B = Q := by
    rw [hQ, hB]; field_simp
  simp only [hiff, e1, e2]
  rw [← hB] at c1
  have hB0 : 0 < B := by rw [hB]; positivity
  have hq0 : 0 < 45724 / 100000 * α ^ 2 / (7780 / 100000 * (T.val / Tc.val)) := by positivity
  have hq1 : 0 ≤ 45724 / 100000 * α' ^ 2 / (7780 / 100000 * (T.val / Tc.val)) := by positivity
  generalize 45724 / 100000 * α ^ 2 / (7780 / 100000 * (T.val / Tc.val)) = q' at *
  generalize 45724 / 100000 * α' ^ 2 / (7780 / 100000 * (T.val / Tc.val)) = Q' at *
  have ha0 : 0 < a := by rw [← e4]; positivity
  have he := A.nonneg
  have e6 : Q' / q' = Q / a := by rw [← e4, ← e5]; field_simp
  have hQa : 0 ≤ Q / a := by rw [← e6]; positivity
  have hp0 : 0 ≤ (96 * (Q / a)) * A.ε := by positivity
  have hκ0 : 0 ≤ κ := by rw [hκ]; positivity
  have haB : 0 < a / B := by positivity
  have hκ1 : κ ≤ 7 / 400 := by nlinarith [mul_nonneg hκ0 hB0.le, mul_nonneg hκ0 haB.le]
  have hκ2 : (96 * (Q / a)) * A.ε + 36 * A.ε ≤ 7 / 400 := by rw [hκ] at hκ1; linarith
  have e7 : 4 * (24 * A.ε) * Q' / |q'| = 96 * (Q / a) * A.ε := by rw [abs_of_pos hq0, ← e6]; ring
  have c4 : Close (96 * (Q / a) * A.ε) q.val q' := by
    have := close_of_scaled (k := 24 * A.ε) (by positivity) (by linarith) hq1 c2.2 (by rw [e7]; linarith) hq0.ne'
    rwa [e7] at this
  have e8 : a / B = q' := by rw [← e4]; field_simp
  have hq2' : q' ≤ 5 / 2 ∨ q' ^ 2 * B ≤ 2 / 5 := by
    rw [← e4] at hq2
    refine hq2.imp (fun h => le_of_mul_le_mul_right h hB0) fun h => le_of_mul_le_mul_left (a := B) ?_ hB0
    linarith
  obtain ⟨Z, a1, a2, a3⟩ := pr_disturbed hB0 hB2 hq0 hq2' (by rw [e4]; exact ha4) c1 c4 (by positivity) cs ce (κ := κ) (δ := δ)
    (by rw [hκ]; ring) (by rw [hδ, e8]) (by rw [e4]; exact hfirst) (by rw [e4]; exact hδ1) hδ2
    (prStep (pnum s) (pnum e) (pnum b) (pnum q) (pnum b))
  refine ⟨Z, a1, a2, fun n => ?_⟩
  obtain ⟨z, b1, b2⟩ := a3 n
  rw [e4] at b2
  exact ⟨z, by rw [c3]; exact b1, b2⟩

/-- Peng-Robinson, liquid, in floating point numbers. -/
theorem C102_peng_robinson_liquid {R : ℝ} (hR : 0 < R) {u v : Sym} (hv : v ∈ pressureUnits) {T P Tc Pc : Fl A}
    (hT : 0 < T.val) (hP : 0 < P.val) (hTc : 0 < Tc.val) (hPc : 0 < Pc.val) {w : Fl A} {α a B Q L κ Z : ℝ}
    (hα' : α = 1 + (37464 / 100000 + 154226 / 100000 * w.val - 26992 / 100000 * w.val ^ 2) * (1 - Real.sqrt (T.val / Tc.val)))
    (hα : α ≠ 0) (hB : B = 7780 / 100000 * (P.val / Pc.val) / (T.val / Tc.val))
    (ha : a = 45724 / 100000 * α ^ 2 * (P.val / Pc.val) / (T.val / Tc.val) ^ 2)
    (hQ : Q = 45724 / 100000 * (1 + (37464 / 100000 + 154226 / 100000 * |w.val| + 26992 / 100000 * w.val ^ 2) *
      (1 + Real.sqrt (T.val / Tc.val))) ^ 2 * (P.val / Pc.val) / (T.val / Tc.val) ^ 2) (hZ : 0 < Z) (hZ1 : Z ≤ 1 / 3)
    (h0 : CubicEOS 1 0 R T.val P.val (45724 / 100000 * R ^ 2 * Tc.val ^ 2 / Pc.val * α ^ 2)
        (7780 / 100000 * R * Tc.val / Pc.val) (Z * R * T.val / P.val))
    (hL : L = (4 * Z + B + B ^ 2) / a) (hL1 : L < 1) (hκ : κ = (96 * (Q / a) + 36) * A.ε) (hs : 20 * κ ≤ 1 - L) (n : ℕ) :
    ∃ z : Fl A, prCallFl u v T P Tc Pc c!"liquid" w n = .ok (.num z) ∧
      |z.val - Z| ≤ (L ^ (n + 1) + 20 * κ / (1 - L)) * Z := by
  have ht : 0 < T.val / Tc.val := by positivity
  obtain ⟨b, q, s, e, c1, c2, cs, ce, c3⟩ := pr_eval_fl (u := u) (P := P) hv hT hTc hPc w
  rw [mul_div_assoc] at hB
  rw [← hα'] at c2
  generalize 1 + (37464 / 100000 + 154226 / 100000 * |w.val| + 26992 / 100000 * w.val ^ 2) *
    (1 + Real.sqrt (T.val / Tc.val)) = α' at *
  have hα2 : 0 < α ^ 2 := by positivity
  have hiff := fun z => eos_iff (a := 45724 / 100000 * R ^ 2 * Tc.val ^ 2 / Pc.val * α ^ 2)
    (b := 7780 / 100000 * R * Tc.val / Pc.val) hR hT hP (by positivity) (by positivity) z
  have e1 : 7780 / 100000 * R * Tc.val / Pc.val * P.val / (R * T.val) = B := by rw [hB]; field_simp
  have e2 : 45724 / 100000 * R ^ 2 * Tc.val ^ 2 / Pc.val * α ^ 2 / (7780 / 100000 * R * Tc.val / Pc.val * (R * T.val)) =
      45724 / 100000 * α ^ 2 / (7780 / 100000 * (T.val / Tc.val)) := by field_simp
  have e4 : 45724 / 100000 * α ^ 2 / (7780 / 100000 * (T.val / Tc.val)) * B = a := by
    rw [ha, hB]; field_simp
  have e5 : 45724 / 100000 * α' ^ 2 / (7780 / 100000 * (T.val / Tc.val)) * B = Q := by
    rw [hQ, hB]; field_simp
  rw [hiff, e1, e2] at h0
  rw [← hB] at c1
  have hB0 : 0 < B := by rw [hB]; positivity
  have hq0 : 0 < 45724 / 100000 * α ^ 2 / (7780 / 100000 * (T.val / Tc.val)) := by positivity
  have hq1 : 0 ≤ 45724 / 100000 * α' ^ 2 / (7780 / 100000 * (T.val / Tc.val)) := by positivity
  generalize 45724 / 100000 * α ^ 2 / (7780 / 100000 * (T.val / Tc.val)) = q' at *
  generalize 45724 / 100000 * α' ^ 2 / (7780 / 100000 * (T.val / Tc.val)) = Q' at *
  have ha0 : 0 < a := by rw [← e4]; positivity
  have he := A.nonneg
  have e6 : Q' / q' = Q / a := by rw [← e4, ← e5]; field_simp
  have hQa : 0 ≤ Q / a := by rw [← e6]; positivity
  have hL0 : 0 ≤ L := by rw [hL]; positivity
  have hp0 : 0 ≤ (96 * (Q / a)) * A.ε := by positivity
  have hκ2 : (96 * (Q / a)) * A.ε + 36 * A.ε ≤ 1 / 20 := by rw [hκ] at hs; linarith
  have e7 : 4 * (24 * A.ε) * Q' / |q'| = 96 * (Q / a) * A.ε := by rw [abs_of_pos hq0, ← e6]; ring
  have c4 : Close (96 * (Q / a) * A.ε) q.val q' := by
    have := close_of_scaled (k := 24 * A.ε) (by positivity) (by linarith) hq1 c2.2 (by rw [e7]; linarith) hq0.ne'
    rwa [e7] at this
  have hL' : L = (4 * Z + B * (1 + B)) / (q' * B) := by rw [e4, hL]; ring
  obtain ⟨hrw, hy⟩ := prStep_liquid hB0 hq0 hZ hZ1 h0 hL' hL1 c1 c4 (by positivity) cs ce (κ := κ) (by rw [hκ]; linarith)
    (by linarith)
  obtain ⟨z, b1, b2⟩ := liquid_disturbed_from hB0 hq0 hZ hZ1 h0 hL' hL1 c1 c4 (κ := κ) (by rw [hκ]; linarith) hs hy
    (prStep (pnum s) (pnum e) (pnum b) (pnum q) (pnum 1)) n
  exact ⟨z, by rw [c3, hrw]; exact b1, b2⟩

end

/-- In double precision, at four times the critical temperature and half the critical pressure. -/
example : ∃ Z, CubicEOS 1 0 8 800 1 (45724 / 100000 * 8 ^ 2 * 200 ^ 2 / 2 * (62536 / 100000) ^ 2) (7780 / 100000 * 8 * 200 / 2)
      (Z * 8 * 800 / 1) ∧
    ∀ n : ℕ, 10 ≤ n → ∃ z : Fl double, prCallFl c!"K" c!"atm" ⟨800⟩ ⟨1⟩ ⟨200⟩ ⟨2⟩ c!"vapor" ⟨0⟩ (n + 1 : ℕ) = .ok (.num z) ∧
      |z.val - Z| ≤ 1 / 10 ^ 11 := by
  obtain ⟨he, he'⟩ := double_eps
  norm_num at he'
  have h4 : Real.sqrt ((⟨800⟩ : Fl double).val / (⟨200⟩ : Fl double).val) = 2 := by
    rw [show ((⟨800⟩ : Fl double).val / (⟨200⟩ : Fl double).val) = 2 ^ 2 by norm_num]; exact Real.sqrt_sq (by norm_num)
  obtain ⟨Z, h1, -, h2⟩ := C102_peng_robinson_vapour (R := 8) (by norm_num) (A := double) (T := ⟨800⟩) (P := ⟨1⟩) (Tc := ⟨200⟩)
    (Pc := ⟨2⟩) (u := c!"K") (v := c!"atm") (w := ⟨0⟩) (α := 62536 / 100000) (by decide) (by norm_num) (by norm_num)
    (by norm_num) (by norm_num) (by rw [h4]; norm_num) (by norm_num) rfl rfl rfl (by norm_num) (by norm_num) (by norm_num) rfl
    rfl (by rw [h4]; norm_num; linarith) (by rw [h4]; norm_num; linarith) (by rw [h4]; norm_num; linarith)
  refine ⟨Z, h1, fun n hn => ?_⟩
  obtain ⟨z, b1, b2⟩ := h2 n
  refine ⟨z, b1, b2.trans ?_⟩
  rw [h4]
  have h3 : (4 * (45724 / 100000 * (62536 / 100000) ^ 2 * (1 / 2) / (800 / 200) ^ 2) : ℝ) ^ n ≤ 1 / 10 ^ 16 :=
    (pow_le_pow_of_le_one (by norm_num) (by norm_num) hn).trans (by norm_num)
  have h5 := mul_le_mul_of_nonneg_right h3 (show (0 : ℝ) ≤ 1 / 2 + 7780 / 100000 * (1 / 2) / (800 / 200) + 1 by norm_num)
  refine (add_le_add_left ((mul_le_mul_of_nonneg_left ?_ (by positivity)).trans h5) _).trans ?_
  · refine add_le_add_right ?_ _
    norm_num
    linarith
  · norm_num
    linarith

end Verif
