import Verif.Lemmas.Running
import Verif.Lemmas.FloatMath
import Verif.Props.CubicLimit

/-!
# C102: rounding errors do not build up over the iterations of the cubic equations of state
-/

namespace Verif

open Set

variable {A : FloatArith}

/-! ## One step -/

theorem pyDiv_fl (x : Fl A) {y : Fl A} (h : y.val ≠ 0) : pyDiv x y = .ok (x / y) :=
  if_neg fun h' => h (by rw [h']; rfl)

theorem vapourStep_fl {b q z : Fl A} (h : (z * (z + b)).val ≠ 0) :
    vapourStep (pnum b) (pnum q) (.ok (.num z)) = .ok (.num (1 + b - q * b * ((z - b) / (z * (z + b))))) := by
  simp only [vapourStep, pnum, ok_mul, ok_div, ok_add, ok_sub, Val.add, Val.sub, Val.mul, Val.div, pyDiv_fl _ h]

theorem liquidStep_fl {b q z : Fl A} (h : (q * b).val ≠ 0) :
    liquidStep (pnum b) (pnum q) (.ok (.num z)) = .ok (.num (b + z * (z + b) * ((1 + b - z) / (q * b)))) := by
  simp only [liquidStep, pnum, ok_mul, ok_div, ok_add, ok_sub, Val.add, Val.sub, Val.mul, Val.div, pyDiv_fl _ h]

theorem vapour_denominator {B kb : ℝ} (hB : 0 < B) {b z : Fl A} (hb : Close kb b.val B) (hz : 0 < z.val) :
    Close (kb + 2 * A.ε) (z * (z + b)).val (z.val * (z.val + B)) := by
  have c1 : Close (kb + A.ε) (z + b).val (z.val + B) := near_add (Close.refl hb.nonneg _) hb (by positivity)
  have c2 : Close (0 + (kb + A.ε) + A.ε) (z * (z + b)).val (z.val * (z.val + B)) := near_mul (Close.refl le_rfl _) c1
  exact c2.mono (by linarith)

/-- The error of one vapour step, from a positive number. -/
theorem vapourStep_within {B q Q kb kq : ℝ} (hB : 0 < B) {b p z : Fl A} (hb : Close kb b.val B) (hkq : 0 ≤ kq)
    (hp : Within kq Q p.val q) (hz : 0 < z.val) :
    Within (kq + 3 * kb + 7 * A.ε) (1 + B + Q * B / z.val) (1 + b - p * b * ((z - b) / (z * (z + b)))).val
      (vapourMap B q z.val) := by
  have he := A.nonneg
  have hk := hb.nonneg
  have hbW : Within kb B b.val B := .of_close hb (by rw [abs_of_pos hB])
  have hzB : 0 < z.val * (z.val + B) := by positivity
  have w1 : Within (kb + A.ε) (1 + B) (1 + b).val (1 + B) := (Within.exact hk (by simp)).fl_add hbW
  have w2 : Within (kb + A.ε) (z.val + B) (z - b).val (z.val - B) :=
    (Within.exact hk (by rw [abs_of_pos hz])).fl_sub hbW
  have w3 := w2.fl_div (A := A) (vapour_denominator hB hb hz) hzB.ne'
  have w4 : Within (kq + kb + A.ε) (Q * B) (p * b).val (q * B) := hp.fl_mul hbW
  have w5 := w4.fl_mul (A := A) w3
  rw [abs_of_pos hzB, show Q * B * ((z.val + B) / (z.val * (z.val + B))) = Q * B / z.val by field_simp] at w5
  have w6 := (w1.mono (l := kq + 3 * kb + 6 * A.ε) (by linarith)).fl_sub (A := A)
    (w5.mono (l := kq + 3 * kb + 6 * A.ε) (by linarith))
  exact w6.mono (by linarith)

/-- The error of one liquid step. -/
theorem liquidStep_within {B q kb kq : ℝ} (hB : 0 < B) (hq : 0 < q) {b p z : Fl A} (hb : Close kb b.val B)
    (hp : Close kq p.val q) (hz : 0 ≤ z.val) :
    Within (kq + 3 * kb + 8 * A.ε) (B + z.val * (z.val + B) * ((1 + B + z.val) / (q * B)))
      (b + z * (z + b) * ((1 + b - z) / (p * b))).val (liquidMap B q z.val) := by
  have he := A.nonneg
  have hk := hb.nonneg
  have hkq := hp.nonneg
  have hqB : 0 < q * B := by positivity
  have hbW : Within kb B b.val B := .of_close hb (by rw [abs_of_pos hB])
  have w1 : Within (kb + A.ε) (1 + B) (1 + b).val (1 + B) := (Within.exact hk (by simp)).fl_add hbW
  have w2 : Within (kb + A.ε + A.ε) (1 + B + z.val) (1 + b - z).val (1 + B - z.val) :=
    w1.fl_sub (Within.exact (by linarith) (by rw [abs_of_nonneg hz]))
  have c1 : Close (kq + kb + A.ε) (p * b).val (q * B) := near_mul hp hb
  have w3 := w2.fl_div (A := A) c1 hqB.ne'
  rw [abs_of_pos hqB] at w3
  have w4 : Within (kb + A.ε) (z.val + B) (z + b).val (z.val + B) :=
    (Within.exact hk (by rw [abs_of_nonneg hz])).fl_add hbW
  have w5 : Within (0 + (kb + A.ε) + A.ε) (z.val * (z.val + B)) (z * (z + b)).val (z.val * (z.val + B)) :=
    (Within.exact le_rfl (by rw [abs_of_nonneg hz])).fl_mul w4
  have w6 := w5.fl_mul (A := A) w3
  have w7 := (hbW.mono (l := kq + 3 * kb + 7 * A.ε) (by linarith)).fl_add (A := A)
    (w6.mono (l := kq + 3 * kb + 7 * A.ε) (by linarith))
  exact w7.mono (by linarith)

/-! ## The iterations -/

theorem vapour_loop_fl {b p : Fl A} (h : ∀ n, (((fun z => 1 + b - p * b * ((z - b) / (z * (z + b))))^[n] 1) *
      ((fun z => 1 + b - p * b * ((z - b) / (z * (z + b))))^[n] 1 + b)).val ≠ 0) (fl : PyM (Val (Fl A))) (n : ℕ) :
    iterateState c!"vapor" n (pnum b) (pnum p) (vapourStep (pnum b) (pnum p) (pnum 1)) fl =
      .ok (.num ((fun z => 1 + b - p * b * ((z - b) / (z * (z + b))))^[n + 1] 1)) := by
  have hl : ∀ n : ℕ, loop (vapourStep (pnum b) (pnum p)) n (vapourStep (pnum b) (pnum p) (pnum 1)) =
      .ok (.num ((fun z => 1 + b - p * b * ((z - b) / (z * (z + b))))^[n + 1] 1)) := by
    intro n
    induction n with
    | zero => exact vapourStep_fl (h 0)
    | succ n ih => rw [loop_succ, ih, vapourStep_fl (h _), Function.iterate_succ_apply' _ (n + 1)]
  exact hl n

theorem liquid_loop_fl {b p y : Fl A} (h : (p * b).val ≠ 0) (fv : PyM (Val (Fl A))) (n : ℕ) :
    iterateState c!"liquid" n (pnum b) (pnum p) fv (.ok (.num y)) =
      .ok (.num ((fun z => b + z * (z + b) * ((1 + b - z) / (p * b)))^[n] y)) := by
  have hl : ∀ n : ℕ, loop (liquidStep (pnum b) (pnum p)) n (.ok (.num y)) =
      .ok (.num ((fun z => b + z * (z + b) * ((1 + b - z) / (p * b)))^[n] y)) := by
    intro n
    induction n with
    | zero => rfl
    | succ n ih => rw [loop_succ, ih, liquidStep_fl h, Function.iterate_succ_apply' _ n]
  exact hl n

/-- The vapour iteration in floating point numbers, started with parameters that carry errors themselves. -/
theorem vapour_disturbed {B q Q kb kq δ : ℝ} (hB : 0 < B) (hq : 0 < q) (hA : q * B < 1 / 4) {b p : Fl A}
    (hb : Close kb b.val B) (hkq : 0 ≤ kq) (hp : Within kq Q p.val q) (hκ : kq + 3 * kb + 7 * A.ε ≤ 1)
    (hδ : δ = 2 * (kq + 3 * kb + 7 * A.ε) * (1 + B + 2 * (Q * B))) (hs : δ ≤ (1 - 4 * (q * B)) / 2)
    (fl : PyM (Val (Fl A))) :
    ∃ Z, eosCubic B q Z = 0 ∧ (∀ w, eosCubic B q w = 0 → w ≤ Z) ∧ ∀ n : ℕ, ∃ z : Fl A,
      iterateState c!"vapor" n (pnum b) (pnum p) (vapourStep (pnum b) (pnum p) (pnum 1)) fl = .ok (.num z) ∧
      |z.val - Z| ≤ (4 * (q * B)) ^ (n + 1) * (1 / 2 + B) + δ / (1 - 4 * (q * B)) := by
  obtain ⟨Z, hZ, h0, hmax, hnear⟩ := vapour_contracts hB hq hA
  have hqB : 0 < q * B := by positivity
  have hQ := (abs_nonneg q).trans hp.1
  have hκ0 : 0 ≤ kq + 3 * kb + 7 * A.ε := by have := hb.nonneg; have := A.nonneg; positivity
  have hδ0 : 0 ≤ δ := by rw [hδ]; positivity
  have hrun := iterate_disturbed (F := vapourMap B q) (S := Ici (1 / 2)) (L := 4 * (q * B)) (δ := δ) (Z := Z)
    (z := fun n => ((fun z => 1 + b - p * b * ((z - b) / (z * (z + b))))^[n] (1 : Fl A)).val) (by positivity) (by linarith)
    hδ0 (by simpa using (by norm_num : (2⁻¹ : ℝ) ≤ 1)) ?_ ?_ hnear
  · refine ⟨Z, h0, hmax, fun n => ⟨_, vapour_loop_fl (fun n => ?_) fl n, ?_⟩⟩
    · have hpos : (0 : ℝ) < _ := lt_of_lt_of_le (by norm_num) (show (1 / 2 : ℝ) ≤ _ from (hrun n).1)
      rw [Ne, (vapour_denominator hB hb hpos).eq_zero_iff]
      positivity
    · refine (hrun (n + 1)).2.trans (add_le_add_left (mul_le_mul_of_nonneg_left ?_ (by positivity)) _)
      simp only [Function.iterate_zero_apply, Fl.val_one]
      rw [abs_le]
      constructor <;> linarith [hZ.1, hZ.2]
  · intro n hn
    have hn' : (1 / 2 : ℝ) ≤ _ := hn
    simp only [Function.iterate_succ_apply']
    have hpos : (0 : ℝ) < _ := lt_of_lt_of_le (by norm_num) hn'
    refine (vapourStep_within hB hb hkq hp hpos).2.trans ?_
    rw [hδ]
    refine mul_le_mul (exp_sub_one_le hκ0 hκ) ?_ (by positivity) (by positivity)
    have : Q * B / _ ≤ Q * B / (1 / 2) := div_le_div_of_nonneg_left (by positivity) (by norm_num) hn'
    linarith
  · intro y hy w hw
    have h1 := vapourMap_ge hB hq hy
    have h2 := (abs_le.1 hw).1
    show (1 / 2 : ℝ) ≤ w
    linarith

theorem liquid_slope_zero {B r x y : ℝ} (hB : 0 < B) (hr : r ≤ 2 / 3) (hx : x ∈ Icc 0 r) (hy : y ∈ Icc 0 r) :
    0 ≤ x + y - (x ^ 2 + x * y + y ^ 2) + B * (1 + B) ∧
      x + y - (x ^ 2 + x * y + y ^ 2) + B * (1 + B) ≤ 2 * r + B * (1 + B) := by
  obtain ⟨x1, x2⟩ := hx
  obtain ⟨y1, y2⟩ := hy
  constructor
  · nlinarith [mul_nonneg x1 (show 0 ≤ 2 / 3 - x by linarith), mul_nonneg y1 (show 0 ≤ 2 / 3 - y by linarith),
      mul_nonneg x1 (show 0 ≤ 2 / 3 - y by linarith), mul_nonneg y1 (show 0 ≤ 2 / 3 - x by linarith)]
  · nlinarith [sq_nonneg x, sq_nonneg y, mul_nonneg x1 y1]

/-- Below twice a root of at most `1/3` the liquid step multiplies the distance to the root by a number between 0 and `L`. -/
theorem liquid_factor {B q L Z : ℝ} (hB : 0 < B) (hq : 0 < q) (hZ : 0 < Z) (hZ1 : Z ≤ 1 / 3)
    (h0 : eosCubic B q Z = 0) (hL : L = (4 * Z + B * (1 + B)) / (q * B)) {y : ℝ} (hy : y ∈ Icc 0 (2 * Z)) :
    ∃ s, liquidMap B q y - Z = (y - Z) * s ∧ 0 ≤ s ∧ s ≤ L := by
  have hqB : 0 < q * B := by positivity
  have hf := (liquidMap_fix hB hq).mpr h0
  obtain ⟨s1, s2⟩ := liquid_slope_zero (r := 2 * Z) hB (by linarith) (x := Z) ⟨hZ.le, by linarith⟩ hy
  refine ⟨(Z + y - (Z ^ 2 + Z * y + y ^ 2) + B * (1 + B)) / (q * B), ?_, by positivity, ?_⟩
  · nth_rw 1 [← hf]
    rw [liquidMap_sub, mul_div_assoc]
  · rw [hL]
    exact div_le_div_of_nonneg_right (by linarith) hqB.le

theorem liquid_near {B q L Z : ℝ} (hB : 0 < B) (hq : 0 < q) (hZ : 0 < Z) (hZ1 : Z ≤ 1 / 3)
    (h0 : eosCubic B q Z = 0) (hL : L = (4 * Z + B * (1 + B)) / (q * B)) {y : ℝ} (hy : y ∈ Icc 0 (2 * Z)) :
    |liquidMap B q y - Z| ≤ L * |y - Z| := by
  obtain ⟨s, e, s1, s2⟩ := liquid_factor hB hq hZ hZ1 h0 hL hy
  rw [e, abs_mul, abs_of_nonneg s1, mul_comm]
  exact mul_le_mul_of_nonneg_right s2 (abs_nonneg _)

/-- The terms of the liquid step are not larger than ten times the root. -/
theorem liquid_size {B q L Z : ℝ} (hB : 0 < B) (hq : 0 < q) (hZ : 0 < Z) (hZ1 : Z ≤ 1 / 3)
    (h0 : eosCubic B q Z = 0) (hL : L = (4 * Z + B * (1 + B)) / (q * B)) (hL1 : L < 1) {y : ℝ} (hy : y ∈ Icc 0 (2 * Z)) :
    B + y * (y + B) * ((1 + B + y) / (q * B)) ≤ 10 * Z := by
  have hqB : 0 < q * B := by positivity
  have h1 : liquidMap B q y ≤ 2 * Z := by
    have h2 := (abs_le.1 (liquid_near hB hq hZ hZ1 h0 hL hy)).2
    have h3 : |y - Z| ≤ Z := abs_le.2 ⟨by linarith [hy.1], by linarith [hy.2]⟩
    have hL0 : 0 ≤ L := by rw [hL]; positivity
    nlinarith
  have h2 : 1 + B + y ≤ 5 * (1 + B - y) := by linarith [hy.2]
  have h3 : y * (y + B) * ((1 + B + y) / (q * B)) ≤ 5 * (y * (y + B) * ((1 + B - y) / (q * B))) := by
    have h4 := div_le_div_of_nonneg_right h2 hqB.le
    have h5 := mul_le_mul_of_nonneg_left h4 (show 0 ≤ y * (y + B) from mul_nonneg hy.1 (by linarith [hy.1]))
    rw [mul_div_assoc] at h5
    linarith
  unfold liquidMap at h1
  linarith

theorem liquidStep_small {B q kb kq κ L Z : ℝ} (hB : 0 < B) (hq : 0 < q) (hZ : 0 < Z) (hZ1 : Z ≤ 1 / 3)
    (h0 : eosCubic B q Z = 0) (hL : L = (4 * Z + B * (1 + B)) / (q * B)) (hL1 : L < 1) {b p z : Fl A}
    (hb : Close kb b.val B) (hp : Close kq p.val q) (hκ : kq + 3 * kb + 8 * A.ε ≤ κ) (hκ1 : κ ≤ 1)
    (hz : z.val ∈ Icc 0 (2 * Z)) :
    |(b + z * (z + b) * ((1 + b - z) / (p * b))).val - liquidMap B q z.val| ≤ 20 * κ * Z := by
  have hkb := hb.nonneg
  have hkq := hp.nonneg
  have he := A.nonneg
  have hqB : 0 < q * B := by positivity
  have hκ0 : 0 ≤ κ := le_trans (by positivity) hκ
  have hz0 := hz.1
  refine ((liquidStep_within hB hq hb hp hz.1).mono hκ).2.trans ?_
  rw [show 20 * κ * Z = 2 * κ * (10 * Z) by ring]
  exact mul_le_mul (exp_sub_one_le hκ0 hκ1) (liquid_size hB hq hZ hZ1 h0 hL hL1 hz) (by positivity) (by positivity)

/-- The starting point of the liquid iteration. -/
theorem liquid_start {B q kb κ Z : ℝ} (hB : 0 < B) (hq : 0 < q) (hZ : 0 < Z) (h0 : eosCubic B q Z = 0) {b : ℝ}
    (hb : Close kb b B) (hκ : 3 * kb ≤ κ) (hκ1 : 20 * κ ≤ 1) : |b - Z| ≤ Z ∧ 0 ≤ b ∧ b ≤ Z + 20 * κ * Z := by
  have hkb := hb.nonneg
  have hBZ := liquid_above hB hq hZ h0
  have h1 := hb.abs_sub_le
  rw [abs_of_pos hB] at h1
  have h2 := exp_sub_one_le hkb (show kb ≤ 1 by linarith)
  have h3 : |b - B| ≤ 2 * kb * B := h1.trans (mul_le_mul_of_nonneg_right h2 hB.le)
  have h4 : 2 * kb * B ≤ 20 * κ * Z := mul_le_mul (by linarith) hBZ hB.le (by linarith)
  have h6 : 2 * kb * B ≤ B := by nlinarith
  have h7 := abs_le.1 h3
  exact ⟨abs_le.2 ⟨by linarith, by nlinarith⟩, by linarith, by linarith⟩

/-- The liquid iteration in floating point numbers, started with parameters that carry errors themselves, after a first
assignment `y`. -/
theorem liquid_disturbed_from {B q kb kq κ L Z : ℝ} (hB : 0 < B) (hq : 0 < q) (hZ : 0 < Z) (hZ1 : Z ≤ 1 / 3)
    (h0 : eosCubic B q Z = 0) (hL : L = (4 * Z + B * (1 + B)) / (q * B)) (hL1 : L < 1) {b p : Fl A}
    (hb : Close kb b.val B) (hp : Close kq p.val q) (hκ : kq + 3 * kb + 8 * A.ε ≤ κ) (hs : 20 * κ ≤ 1 - L)
    {y : Fl A} (hy : |y.val - liquidMap B q b.val| ≤ 20 * κ * Z) (fv : PyM (Val (Fl A))) (n : ℕ) : ∃ z : Fl A,
      iterateState c!"liquid" n (pnum b) (pnum p) fv (.ok (.num y)) = .ok (.num z) ∧
      |z.val - Z| ≤ (L ^ (n + 1) + 20 * κ / (1 - L)) * Z := by
  have hqB : 0 < q * B := by positivity
  have hkb := hb.nonneg
  have hkq := hp.nonneg
  have he := A.nonneg
  have hκ0 : 0 ≤ κ := le_trans (by positivity) hκ
  have hL0 : 0 ≤ L := by rw [hL]; positivity
  have hL2 : 0 < 1 - L := by linarith
  have hρ : 20 * κ * Z / (1 - L) ≤ Z := by
    rw [div_le_iff₀ hL2]
    nlinarith
  have hρ0 : 0 ≤ 20 * κ * Z / (1 - L) := by positivity
  have hsub : ∀ y ∈ Icc 0 (Z + 20 * κ * Z / (1 - L)), y ∈ Icc 0 (2 * Z) := fun y hy => ⟨hy.1, by linarith [hy.2]⟩
  obtain ⟨hbZ, hb0, hb1⟩ := liquid_start hB hq hZ h0 (κ := κ) hb (by linarith) (by linarith)
  have h5 : 20 * κ * Z ≤ 20 * κ * Z / (1 - L) := le_div_self (by positivity) hL2 (by linarith)
  have hrun := iterate_disturbed (F := liquidMap B q) (S := Icc 0 (Z + 20 * κ * Z / (1 - L))) (L := L) (δ := 20 * κ * Z) (Z := Z)
    (z := fun n => n.casesOn b.val fun n => ((fun z => b + z * (z + b) * ((1 + b - z) / (p * b)))^[n] y).val) hL0 hL1
    (by positivity) ⟨hb0, show b.val ≤ _ by linarith⟩ ?_ ?_ (fun y hy => liquid_near hB hq hZ hZ1 h0 hL (hsub y hy))
  · refine ⟨_, liquid_loop_fl ?_ fv n, (hrun (n + 1)).2.trans ?_⟩
    · have c : Close (kq + kb + A.ε) (p * b).val (q * B) := near_mul hp hb
      rw [Ne, c.eq_zero_iff]
      exact hqB.ne'
    · rw [add_mul, div_mul_eq_mul_div]
      exact add_le_add_left (mul_le_mul_of_nonneg_left hbZ (by positivity)) _
  · rintro (_ | n) hn
    · exact hy
    · simp only [Function.iterate_succ_apply']
      exact liquidStep_small hB hq hZ hZ1 h0 hL hL1 hb hp hκ (by linarith) (hsub _ hn)
  · intro y hy w hw
    obtain ⟨s, e, s1, s2⟩ := liquid_factor hB hq hZ hZ1 h0 hL (hsub y hy)
    have h1 := abs_le.1 hw
    have h2 := (abs_le.1 (liquid_near hB hq hZ hZ1 h0 hL (hsub y hy))).1
    have h3 : |y - Z| ≤ Z := abs_le.2 ⟨by linarith [hy.1], by linarith [(hsub y hy).2]⟩
    have h4 : 20 * κ * Z ≤ (1 - L) * Z := mul_le_mul_of_nonneg_right hs hZ.le
    refine ⟨by nlinarith, ?_⟩
    have h5 : liquidMap B q y - Z ≤ L * (20 * κ * Z / (1 - L)) := by
      rw [e]
      rcases le_total y Z with h | h
      · exact (mul_nonpos_of_nonpos_of_nonneg (by linarith) s1).trans (by positivity)
      · rw [mul_comm]
        exact mul_le_mul s2 (by linarith [hy.2]) (by linarith) hL0
    have e2 : 20 * κ * Z / (1 - L) = 20 * κ * Z + L * (20 * κ * Z / (1 - L)) := by field_simp; ring
    linarith

/-- The liquid iteration of the first three functions. -/
theorem liquid_disturbed {B q kb kq κ L Z : ℝ} (hB : 0 < B) (hq : 0 < q) (hZ : 0 < Z) (hZ1 : Z ≤ 1 / 3)
    (h0 : eosCubic B q Z = 0) (hL : L = (4 * Z + B * (1 + B)) / (q * B)) (hL1 : L < 1) {b p : Fl A}
    (hb : Close kb b.val B) (hp : Close kq p.val q) (hκ : κ = kq + 3 * kb + 8 * A.ε) (hs : 20 * κ ≤ 1 - L)
    (fv : PyM (Val (Fl A))) (n : ℕ) : ∃ z : Fl A,
      iterateState c!"liquid" n (pnum b) (pnum p) fv (liquidStep (pnum b) (pnum p) (pnum b)) = .ok (.num z) ∧
      |z.val - Z| ≤ (L ^ (n + 1) + 20 * κ / (1 - L)) * Z := by
  have hqB : 0 < q * B := by positivity
  have hkb := hb.nonneg
  have hkq := hp.nonneg
  have he := A.nonneg
  have hL0 : 0 ≤ L := by rw [hL]; positivity
  obtain ⟨hbZ, hb0, hb1⟩ := liquid_start hB hq hZ h0 (κ := κ) hb (by linarith) (by linarith)
  have hbi : b.val ∈ Icc 0 (2 * Z) := ⟨hb0, by linarith [(abs_le.1 hbZ).2]⟩
  have c : Close (kq + kb + A.ε) (p * b).val (q * B) := near_mul hp hb
  have hne : (p * b).val ≠ 0 := by rw [Ne, c.eq_zero_iff]; exact hqB.ne'
  rw [show liquidStep (pnum b) (pnum p) (pnum b) = _ from liquidStep_fl hne]
  exact liquid_disturbed_from hB hq hZ hZ1 h0 hL hL1 hb hp hκ.ge hs
    (liquidStep_small hB hq hZ hZ1 h0 hL hL1 hb hp hκ.ge (by linarith) hbi) fv n

/-! ## The functions -/

/-- `rendlich_kwong` with floating point temperatures in the unit `u` and pressures in the unit `v`. -/
noncomputable def rkCallFl (u v : Sym) (T P Tc Pc : Fl A) (state : Sym) (n : ℤ) : PyM (Val (Fl A)) :=
  rendlichKwong (qU .temperature T u) (qU .pressure P v) (qU .temperature Tc u) (qU .pressure Pc v) state n

noncomputable def vdwCallFl (u v : Sym) (T P Tc Pc : Fl A) (state : Sym) (n : ℤ) : PyM (Val (Fl A)) :=
  vanDerWaals (qU .temperature T u) (qU .pressure P v) (qU .temperature Tc u) (qU .pressure Pc v) state n

noncomputable def srkCallFl (u v : Sym) (T P Tc Pc : Fl A) (state : Sym) (w : Fl A) (n : ℤ) : PyM (Val (Fl A)) :=
  soaveRendlichKwong (qU .temperature T u) (qU .pressure P v) (qU .temperature Tc u) (qU .pressure Pc v) state w n

theorem temp_ratio_fl (u : Sym) (T Tc : Fl A) (hc : Tc.val ≠ 0) :
    qU .temperature T u / qU .temperature Tc u = pnum (T / Tc) := by
  simp [qU, mkUnit, ok_div, Val.div, unitDiv, pyDiv_fl _ hc, pnum]

theorem pres_ratio_fl {u : Sym} (hu : u ∈ pressureUnits) (P Pc : Fl A) (hc : Pc.val ≠ 0) :
    qU .pressure P u / qU .pressure Pc u = pnum (P / Pc) := by
  simp [qU, mkUnit, hu, ok_div, Val.div, unitDiv, pyDiv_fl _ hc, pnum]

theorem pow_fl_pos {x : Fl A} (hx : 0 < x.val) (e : ℚ) : (PyPow.pow x e : PyM (Fl A)) = .ok ⟨A.pow x.val e⟩ := by
  simp [PyPow.pow, hx.ne', hx.not_gt]

theorem pow_fl_two (x : Fl A) : (PyPow.pow x 2 : PyM (Fl A)) = .ok ⟨A.pow x.val 2⟩ := by
  have h1 : ¬ (x.val = 0 ∧ (2 : ℚ) < 0) := by norm_num
  have h2 : ¬ (x.val < 0 ∧ (2 : ℚ).den ≠ 1) := by norm_num
  simp only [PyPow.pow, if_neg h1, if_neg h2]

theorem Within.fl_sq {κ M x y : ℝ} (h : Within κ M x y) : Within (2 * κ + A.ε) (M ^ 2) (A.pow x 2) (y ^ 2) := by
  have hc := A.pow_close x 2 (by
    rcases lt_trichotomy x 0 with h | h | h
    · exact Or.inr (Or.inr ⟨h, by norm_num⟩)
    · exact Or.inr (Or.inl ⟨h, by norm_num⟩)
    · exact Or.inl h)
  rw [show x ^ ((2 : ℚ) : ℝ) = x ^ 2 by rw [Rat.cast_ofNat, Real.rpow_ofNat]] at hc
  exact h.pow_two.round hc

theorem lit_fl_close (r : ℚ) : Close A.ε ((r : ℚ) : Fl A).val (r : ℝ) := A.lit_close r

section
variable {u v : Sym} (hv : v ∈ pressureUnits) {T P Tc Pc : Fl A} (hT : 0 < T.val) (hP : 0 < P.val) (hTc : 0 < Tc.val)
  (hPc : 0 < Pc.val)
include hT hTc hPc

theorem reduced_fl (r : ℚ) : Close A.ε (T / Tc).val (T.val / Tc.val) ∧
    Close (5 * A.ε) (((r : ℚ) : Fl A) * ((P / Pc) / (T / Tc))).val (r * ((P.val / Pc.val) / (T.val / Tc.val))) ∧
    Close (3 * A.ε) (((r : ℚ) : Fl A) * (T / Tc)).val (r * (T.val / Tc.val)) := by
  have ht : Close A.ε (T / Tc).val (T.val / Tc.val) := A.div_close _ _ hTc.ne'
  have hp : Close A.ε (P / Pc).val (P.val / Pc.val) := A.div_close _ _ hPc.ne'
  have h1 : Close (A.ε + A.ε + A.ε) (P / Pc / (T / Tc)).val (P.val / Pc.val / (T.val / Tc.val)) :=
    near_div hp ht (by positivity)
  have h2 : Close (A.ε + (A.ε + A.ε + A.ε) + A.ε) (((r : ℚ) : Fl A) * ((P / Pc) / (T / Tc))).val
    (r * ((P.val / Pc.val) / (T.val / Tc.val))) := near_mul (lit_fl_close r) h1
  have h3 : Close (A.ε + A.ε + A.ε) (((r : ℚ) : Fl A) * (T / Tc)).val (r * (T.val / Tc.val)) :=
    near_mul (lit_fl_close r) ht
  exact ⟨ht, h2.mono (by linarith), h3.mono (by linarith)⟩

include hv

/-- The reduced parameters of `rendlich_kwong` in floating point numbers. -/
theorem rk_eval_fl : ∃ b q : Fl A, Close (5 * A.ε) b.val (8664 / 100000 * ((P.val / Pc.val) / (T.val / Tc.val))) ∧
    Close (8 * A.ε) q.val (42748 / 100000 * (T.val / Tc.val) ^ ((-1 / 2 : ℚ) : ℝ) / (8664 / 100000 * (T.val / Tc.val))) ∧
    ∀ state n, rkCallFl u v T P Tc Pc state n = iterateState state n (pnum b) (pnum q)
      (vapourStep (pnum b) (pnum q) (pnum 1)) (liquidStep (pnum b) (pnum q) (pnum b)) := by
  obtain ⟨ht, h1, h2⟩ := reduced_fl hT hTc hPc (8664 / 100000)
  have he := A.nonneg
  have ht0 : 0 < T.val / Tc.val := by positivity
  have ht1 : 0 < (T / Tc).val := by
    obtain ⟨t, -, e⟩ := ht
    rw [e]; positivity
  have h3 : Close (|((-1 / 2 : ℚ) : ℝ)| * A.ε + A.ε) (A.pow (T / Tc).val (-1 / 2)) ((T.val / Tc.val) ^ ((-1 / 2 : ℚ) : ℝ)) := by
    have := near_pow (A := A) ht (-1 / 2)
    rw [pow_fl_pos ht1, pow_real_pos ht0] at this
    exact this
  have h4 : Close _ ((((42748 / 100000 : ℚ)) : Fl A) * (⟨A.pow (T / Tc).val (-1 / 2)⟩ : Fl A)).val
    (((42748 / 100000 : ℚ) : ℝ) * (T.val / Tc.val) ^ ((-1 / 2 : ℚ) : ℝ)) := near_mul (lit_fl_close _) h3
  have hne : ((8664 / 100000 : ℚ) : ℝ) * (T.val / Tc.val) ≠ 0 := by push_cast; positivity
  have h5 := near_div (A := A) h4 h2 hne
  refine ⟨_, (((42748 / 100000 : ℚ)) : Fl A) * (⟨A.pow (T / Tc).val (-1 / 2)⟩ : Fl A) /
    (((8664 / 100000 : ℚ) : Fl A) * (T / Tc)), by push_cast at h1; exact h1, ?_, fun state n => ?_⟩
  · have h6 := h5.mono (l := 8 * A.ε) (by norm_num; linarith)
    have e1 : ((42748 / 100000 : ℚ) : ℝ) = 42748 / 100000 := by norm_num
    have e2 : ((8664 / 100000 : ℚ) : ℝ) = 8664 / 100000 := by norm_num
    rw [e1, e2] at h6
    exact h6
  · have hne' : (((8664 / 100000 : ℚ) : Fl A) * (T / Tc)).val ≠ 0 := fun h => hne (h2.eq_zero_iff.1 h)
    unfold rkCallFl rendlichKwong
    rw [temp_ratio_fl u T Tc hTc.ne', pres_ratio_fl hv P Pc hPc.ne']
    simp only [pnum, ok_pow, ok_mul, ok_div, Val.pow, pow_fl_pos ht1, Val.mul, Val.div, pyDiv_fl _ ht1.ne', pyDiv_fl _ hne']

/-- The reduced parameters of `van_der_waals` in floating point numbers. -/
theorem vdw_eval_fl : ∃ b q : Fl A, Close (5 * A.ε) b.val (1 / 8 * ((P.val / Pc.val) / (T.val / Tc.val))) ∧
    Close (6 * A.ε) q.val (27 / 64 * 1 / (1 / 8 * (T.val / Tc.val))) ∧
    ∀ state n, vdwCallFl u v T P Tc Pc state n = iterateState state n (pnum b) (pnum q)
      (vapourStep (pnum b) (pnum q) (pnum 1)) (liquidStep (pnum b) (pnum q) (pnum b)) := by
  obtain ⟨ht, h1, h2⟩ := reduced_fl hT hTc hPc (1 / 8)
  have he := A.nonneg
  have ht0 : 0 < T.val / Tc.val := by positivity
  have ht1 : 0 < (T / Tc).val := by
    obtain ⟨t, -, e⟩ := ht
    rw [e]; positivity
  have h4 : Close (A.ε + 0 + A.ε) ((((27 / 64 : ℚ)) : Fl A) * (1 : Fl A)).val (((27 / 64 : ℚ) : ℝ) * 1) :=
    near_mul (lit_fl_close _) (Close.refl le_rfl _)
  have hne : ((1 / 8 : ℚ) : ℝ) * (T.val / Tc.val) ≠ 0 := by push_cast; positivity
  have h5 := near_div (A := A) h4 h2 hne
  refine ⟨_, (((27 / 64 : ℚ)) : Fl A) * (1 : Fl A) / (((1 / 8 : ℚ) : Fl A) * (T / Tc)), by push_cast at h1; exact h1, ?_,
    fun state n => ?_⟩
  · have h6 := h5.mono (l := 6 * A.ε) (by linarith)
    have e1 : ((27 / 64 : ℚ) : ℝ) = 27 / 64 := by norm_num
    have e2 : ((1 / 8 : ℚ) : ℝ) = 1 / 8 := by norm_num
    rw [e1, e2] at h6
    exact h6
  · have hne' : (((1 / 8 : ℚ) : Fl A) * (T / Tc)).val ≠ 0 := fun h => hne (h2.eq_zero_iff.1 h)
    unfold vdwCallFl vanDerWaals
    rw [temp_ratio_fl u T Tc hTc.ne', pres_ratio_fl hv P Pc hPc.ne']
    simp only [pnum, ok_mul, ok_div, Val.mul, Val.div, pyDiv_fl _ ht1.ne', pyDiv_fl _ hne']

/-- The reduced parameters of `soave_rendlich_kwong` in floating point numbers; `Q` is the size of the terms of `q`. -/
theorem srk_eval_fl (w : Fl A) : ∃ b q : Fl A, Close (5 * A.ε) b.val (8664 / 100000 * ((P.val / Pc.val) / (T.val / Tc.val))) ∧
    Within (24 * A.ε) (42748 / 100000 * (1 + (480 / 1000 + 1574 / 1000 * |w.val| + 176 / 1000 * w.val ^ 2) *
        (1 + Real.sqrt (T.val / Tc.val))) ^ 2 / (8664 / 100000 * (T.val / Tc.val))) q.val
      (42748 / 100000 * (1 + (480 / 1000 + 1574 / 1000 * w.val - 176 / 1000 * w.val ^ 2) *
        (1 - Real.sqrt (T.val / Tc.val))) ^ 2 / (8664 / 100000 * (T.val / Tc.val))) ∧
    ∀ state n, srkCallFl u v T P Tc Pc state w n = iterateState state n (pnum b) (pnum q)
      (vapourStep (pnum b) (pnum q) (pnum 1)) (liquidStep (pnum b) (pnum q) (pnum b)) := by
  obtain ⟨ht, h1, h2⟩ := reduced_fl hT hTc hPc (8664 / 100000)
  have he := A.nonneg
  have ht0 : 0 < T.val / Tc.val := by positivity
  have ht1 : 0 < (T / Tc).val := by
    obtain ⟨t, -, e⟩ := ht
    rw [e]; positivity
  have hlit : ∀ (r : ℚ) (y : ℝ), (r : ℝ) = y → 0 ≤ y → Within A.ε y ((r : ℚ) : Fl A).val y := by
    rintro r y rfl hy
    exact .of_close (lit_fl_close r) (by rw [abs_of_nonneg hy])
  have h3 : Close (3 / 2 * A.ε) (A.pow (T / Tc).val (1 / 2)) (Real.sqrt (T.val / Tc.val)) := by
    have := near_pow (A := A) ht (1 / 2)
    rw [pow_fl_pos ht1, pow_real_half ht0.le] at this
    have h : Close (|((1 / 2 : ℚ) : ℝ)| * A.ε + A.ε) (A.pow (T / Tc).val (1 / 2)) (Real.sqrt (T.val / Tc.val)) := this
    exact h.mono (by norm_num; linarith)
  have w1 : Within (3 / 2 * A.ε) (Real.sqrt (T.val / Tc.val)) (⟨A.pow (T / Tc).val (1 / 2)⟩ : Fl A).val
    (Real.sqrt (T.val / Tc.val)) := .of_close h3 (by rw [abs_of_nonneg (Real.sqrt_nonneg _)])
  have w2 : Within (3 / 2 * A.ε + A.ε) (1 + Real.sqrt (T.val / Tc.val)) (1 - (⟨A.pow (T / Tc).val (1 / 2)⟩ : Fl A)).val
    (1 - Real.sqrt (T.val / Tc.val)) := (Within.exact (by positivity) (by simp)).fl_sub w1
  have w3 : Within (A.ε + 0 + A.ε) (1574 / 1000 * |w.val|) (((1574 / 1000 : ℚ) : Fl A) * w).val (1574 / 1000 * w.val) :=
    (hlit _ _ (by norm_num) (by norm_num)).fl_mul (Within.exact le_rfl le_rfl)
  have w4 := ((hlit (480 / 1000) (480 / 1000) (by norm_num) (by norm_num)).mono (l := A.ε + 0 + A.ε) (by linarith)).fl_add
    (A := A) w3
  have w5 : Within (2 * 0 + A.ε) (|w.val| ^ 2) (⟨A.pow w.val 2⟩ : Fl A).val (w.val ^ 2) :=
    (Within.exact le_rfl le_rfl).fl_sq
  have w6 := (hlit (176 / 1000) (176 / 1000) (by norm_num) (by norm_num)).fl_mul (A := A) w5
  have w7 := w4.fl_sub (A := A) (w6.mono (by linarith))
  have w8 := (Within.exact (κ := A.ε + 0 + A.ε + A.ε + A.ε + (3 / 2 * A.ε + A.ε) + A.ε) (x := 1) (M := 1) (by positivity)
    (by simp)).fl_add (A := A) (w7.fl_mul (A := A) w2)
  have w9 := (hlit (42748 / 100000) (42748 / 100000) (by norm_num) (by norm_num)).fl_mul (A := A) (w8.fl_sq (A := A))
  have hne : ((8664 / 100000 : ℚ) : ℝ) * (T.val / Tc.val) ≠ 0 := by push_cast; positivity
  have e2 : ((8664 / 100000 : ℚ) : ℝ) = 8664 / 100000 := by norm_num
  have w10 := w9.fl_div (A := A) h2 hne
  rw [e2, abs_of_pos (show 0 < 8664 / 100000 * (T.val / Tc.val) by positivity), sq_abs] at w10
  refine ⟨_, ⟨_⟩, by push_cast at h1; exact h1, w10.mono (by linarith), fun state n => ?_⟩
  have hne' : (((8664 / 100000 : ℚ) : Fl A) * (T / Tc)).val ≠ 0 := fun h => hne (h2.eq_zero_iff.1 h)
  unfold srkCallFl soaveRendlichKwong
  rw [temp_ratio_fl u T Tc hTc.ne', pres_ratio_fl hv P Pc hPc.ne']
  simp only [pnum, ok_pow, ok_mul, ok_div, ok_add, ok_sub, Val.pow, pow_fl_pos ht1, pow_fl_two, Val.mul, Val.div, Val.add,
    Val.sub, pyDiv_fl _ ht1.ne', pyDiv_fl _ hne']
  rfl

end

/-! ## The properties -/

section
variable {R : ℝ} (hR : 0 < R) {u v : Sym} (hv : v ∈ pressureUnits) {T P Tc Pc : Fl A} (hT : 0 < T.val) (hP : 0 < P.val)
  (hTc : 0 < Tc.val) (hPc : 0 < Pc.val)
include hR hv hT hP hTc hPc

/-- Redlich-Kwong, vapour: after any number of iterations in floating point numbers the result is within
`60 ε (1 + B + 2 A) / (1 - 4 A)` of the largest solution of the equation of state, plus what the starting point still
contributes. -/
theorem C102_redlich_kwong_vapour {a B δ : ℝ} (hB : B = 8664 / 100000 * (P.val / Pc.val) / (T.val / Tc.val))
    (ha : a = 42748 / 100000 * (P.val / Pc.val) / ((T.val / Tc.val) ^ 2 * Real.sqrt (T.val / Tc.val))) (ha4 : a < 1 / 4)
    (hδ : δ = 60 * A.ε * (1 + B + 2 * a)) (hs : δ ≤ (1 - 4 * a) / 2) :
    ∃ Z, RedlichKwongEOS R T.val P.val Tc.val Pc.val (Z * R * T.val / P.val) ∧
      (∀ w, RedlichKwongEOS R T.val P.val Tc.val Pc.val (w * R * T.val / P.val) → w ≤ Z) ∧
      ∀ n : ℕ, ∃ z : Fl A, rkCallFl u v T P Tc Pc c!"vapor" n = .ok (.num z) ∧
        |z.val - Z| ≤ (4 * a) ^ (n + 1) * (1 / 2 + B) + δ / (1 - 4 * a) := by
  have ht : 0 < T.val / Tc.val := by positivity
  obtain ⟨e1, e2⟩ := rk_reduced hR hT hP hTc hPc
  have hs2 := Real.sqrt_pos.mpr hT
  have hiff := fun z => eos_iff (a := 42748 / 100000 * R ^ 2 * Tc.val ^ (5 / 2 : ℝ) / Pc.val / Real.sqrt T.val)
    (b := 8664 / 100000 * R * Tc.val / Pc.val) hR hT hP (by positivity) (by positivity) z
  have e3 : (T.val / Tc.val) ^ ((-1 / 2 : ℚ) : ℝ) = 1 / Real.sqrt (T.val / Tc.val) := by
    rw [Real.sqrt_eq_rpow]
    push_cast
    rw [show (-1 / 2 : ℝ) = -(1 / 2) by norm_num, Real.rpow_neg ht.le]
    exact inv_eq_one_div _
  rw [mul_div_assoc] at hB
  have e4 : 42748 / 100000 * (T.val / Tc.val) ^ ((-1 / 2 : ℚ) : ℝ) / (8664 / 100000 * (T.val / Tc.val)) * B = a := by
    have := Real.sqrt_pos.mpr ht
    rw [e3, ha, hB]
    field_simp
  obtain ⟨b, q, c1, c2, c3⟩ := rk_eval_fl (u := u) (P := P) hv hT hTc hPc
  unfold RedlichKwongEOS
  simp only [hiff, e1, e2]
  rw [← hB] at c1 ⊢
  have hB0 : 0 < B := by rw [hB]; positivity
  have hq0 : 0 < 42748 / 100000 * (T.val / Tc.val) ^ ((-1 / 2 : ℚ) : ℝ) / (8664 / 100000 * (T.val / Tc.val)) := by positivity
  generalize 42748 / 100000 * (T.val / Tc.val) ^ ((-1 / 2 : ℚ) : ℝ) / (8664 / 100000 * (T.val / Tc.val)) = q' at *
  have ha0 : 0 < a := by rw [← e4]; positivity
  have he := A.nonneg
  have h60 : 60 * A.ε ≤ 1 / 2 := by nlinarith
  obtain ⟨Z, a1, a2, a3⟩ := vapour_disturbed hB0 hq0 (by rw [e4]; exact ha4) c1 (by positivity)
    (Within.of_close c2 (M := q') (by rw [abs_of_pos hq0])) (by linarith) (δ := δ) (by rw [e4, hδ]; ring)
    (by rw [e4]; exact hs) (liquidStep (pnum b) (pnum q) (pnum b))
  refine ⟨Z, a1, a2, fun n => ?_⟩
  obtain ⟨z, b1, b2⟩ := a3 n
  rw [e4] at b2
  exact ⟨z, by rw [c3]; exact b1, b2⟩

/-- Redlich-Kwong, liquid: with `L = (4 Z + B + B²) / (q B) < 1` for a solution `Z ≤ 1/3` of the equation of state, the
relative distance of the result from `Z` is at most `L^(n+1) + 620 ε / (1 - L)` after `n` iterations. -/
theorem C102_redlich_kwong_liquid {B a L Z : ℝ} (hB : B = 8664 / 100000 * (P.val / Pc.val) / (T.val / Tc.val))
    (ha : a = 42748 / 100000 * (P.val / Pc.val) / ((T.val / Tc.val) ^ 2 * Real.sqrt (T.val / Tc.val)))
    (hZ : 0 < Z) (hZ1 : Z ≤ 1 / 3) (h0 : RedlichKwongEOS R T.val P.val Tc.val Pc.val (Z * R * T.val / P.val))
    (hL : L = (4 * Z + B + B ^ 2) / a) (hL1 : L < 1) (hs : 620 * A.ε ≤ 1 - L) (n : ℕ) :
    ∃ z : Fl A, rkCallFl u v T P Tc Pc c!"liquid" n = .ok (.num z) ∧
      |z.val - Z| ≤ (L ^ (n + 1) + 620 * A.ε / (1 - L)) * Z := by
  have ht : 0 < T.val / Tc.val := by positivity
  obtain ⟨e1, e2⟩ := rk_reduced hR hT hP hTc hPc
  have hs2 := Real.sqrt_pos.mpr hT
  have hiff := fun z => eos_iff (a := 42748 / 100000 * R ^ 2 * Tc.val ^ (5 / 2 : ℝ) / Pc.val / Real.sqrt T.val)
    (b := 8664 / 100000 * R * Tc.val / Pc.val) hR hT hP (by positivity) (by positivity) z
  have e3 : (T.val / Tc.val) ^ ((-1 / 2 : ℚ) : ℝ) = 1 / Real.sqrt (T.val / Tc.val) := by
    rw [Real.sqrt_eq_rpow]
    push_cast
    rw [show (-1 / 2 : ℝ) = -(1 / 2) by norm_num, Real.rpow_neg ht.le]
    exact inv_eq_one_div _
  rw [mul_div_assoc] at hB
  have e4 : 42748 / 100000 * (T.val / Tc.val) ^ ((-1 / 2 : ℚ) : ℝ) / (8664 / 100000 * (T.val / Tc.val)) * B = a := by
    have := Real.sqrt_pos.mpr ht
    rw [e3, ha, hB]
    field_simp
  obtain ⟨b, q, c1, c2, c3⟩ := rk_eval_fl (u := u) (P := P) hv hT hTc hPc
  unfold RedlichKwongEOS at h0
  rw [hiff, e1, e2] at h0
  rw [← hB] at c1 h0
  have hB0 : 0 < B := by rw [hB]; positivity
  have hq0 : 0 < 42748 / 100000 * (T.val / Tc.val) ^ ((-1 / 2 : ℚ) : ℝ) / (8664 / 100000 * (T.val / Tc.val)) := by positivity
  generalize 42748 / 100000 * (T.val / Tc.val) ^ ((-1 / 2 : ℚ) : ℝ) / (8664 / 100000 * (T.val / Tc.val)) = q' at *
  obtain ⟨z, b1, b2⟩ := liquid_disturbed hB0 hq0 hZ hZ1 h0 (L := L) (κ := 31 * A.ε) (by rw [e4, hL]; ring) hL1 c1 c2
    (by ring) (by linarith) (vapourStep (pnum b) (pnum q) (pnum 1)) n
  refine ⟨z, by rw [c3]; exact b1, b2.trans (le_of_eq ?_)⟩
  ring

/-- Soave-Redlich-Kwong, vapour: `Q` bounds the terms of `q`, some of which cancel. -/
theorem C102_soave_vapour {w : Fl A} {a B Q δ : ℝ}
    (hα : 1 + (480 / 1000 + 1574 / 1000 * w.val - 176 / 1000 * w.val ^ 2) * (1 - Real.sqrt (T.val / Tc.val)) ≠ 0)
    (hB : B = 8664 / 100000 * (P.val / Pc.val) / (T.val / Tc.val))
    (ha : a = 42748 / 100000 * (1 + (480 / 1000 + 1574 / 1000 * w.val - 176 / 1000 * w.val ^ 2) *
      (1 - Real.sqrt (T.val / Tc.val))) ^ 2 * (P.val / Pc.val) / (T.val / Tc.val) ^ 2)
    (hQ : Q = 42748 / 100000 * (1 + (480 / 1000 + 1574 / 1000 * |w.val| + 176 / 1000 * w.val ^ 2) *
      (1 + Real.sqrt (T.val / Tc.val))) ^ 2 * (P.val / Pc.val) / (T.val / Tc.val) ^ 2) (ha4 : a < 1 / 4)
    (hδ : δ = 92 * A.ε * (1 + B + 2 * Q)) (hs : δ ≤ (1 - 4 * a) / 2) :
    ∃ Z, SoaveEOS R T.val P.val Tc.val Pc.val w.val (Z * R * T.val / P.val) ∧
      (∀ y, SoaveEOS R T.val P.val Tc.val Pc.val w.val (y * R * T.val / P.val) → y ≤ Z) ∧
      ∀ n : ℕ, ∃ z : Fl A, srkCallFl u v T P Tc Pc c!"vapor" w n = .ok (.num z) ∧
        |z.val - Z| ≤ (4 * a) ^ (n + 1) * (1 / 2 + B) + δ / (1 - 4 * a) := by
  have ht : 0 < T.val / Tc.val := by positivity
  obtain ⟨b, q, c1, c2, c3⟩ := srk_eval_fl (u := u) (P := P) hv hT hTc hPc w
  rw [mul_div_assoc] at hB
  unfold SoaveEOS
  generalize 1 + (480 / 1000 + 1574 / 1000 * w.val - 176 / 1000 * w.val ^ 2) * (1 - Real.sqrt (T.val / Tc.val)) = α at *
  generalize 1 + (480 / 1000 + 1574 / 1000 * |w.val| + 176 / 1000 * w.val ^ 2) * (1 + Real.sqrt (T.val / Tc.val)) = α' at *
  have hα2 : 0 < α ^ 2 := by positivity
  have hiff := fun z => eos_iff (a := 42748 / 100000 * R ^ 2 * Tc.val ^ 2 / Pc.val * α ^ 2)
    (b := 8664 / 100000 * R * Tc.val / Pc.val) hR hT hP (by positivity) (by positivity) z
  have e1 : 8664 / 100000 * R * Tc.val / Pc.val * P.val / (R * T.val) = B := by rw [hB]; field_simp
  have e2 : 42748 / 100000 * R ^ 2 * Tc.val ^ 2 / Pc.val * α ^ 2 / (8664 / 100000 * R * Tc.val / Pc.val * (R * T.val)) =
      42748 / 100000 * α ^ 2 / (8664 / 100000 * (T.val / Tc.val)) := by field_simp
  have e4 : 42748 / 100000 * α ^ 2 / (8664 / 100000 * (T.val / Tc.val)) * B = a := by
    rw [ha, hB]; field_simp
  have e5 : 42748 / 100000 * α' ^ 2 / (8664 / 100000 * (T.val / Tc.val)) * B = Q := by
    rw [hQ, hB]; field_simp
  simp only [hiff, e1, e2]
  rw [← hB] at c1
  have hB0 : 0 < B := by rw [hB]; positivity
  have hQ0 : 0 ≤ Q := by rw [hQ]; positivity
  have hq0 : 0 < 42748 / 100000 * α ^ 2 / (8664 / 100000 * (T.val / Tc.val)) := by positivity
  generalize 42748 / 100000 * α ^ 2 / (8664 / 100000 * (T.val / Tc.val)) = q' at *
  have ha0 : 0 < a := by rw [← e4]; positivity
  have he := A.nonneg
  have h92 : 92 * A.ε ≤ 1 / 2 := by nlinarith
  obtain ⟨Z, a1, a2, a3⟩ := vapour_disturbed hB0 hq0 (by rw [e4]; exact ha4) c1 (by positivity)
    c2 (by linarith) (δ := δ) (by rw [e5, hδ]; ring) (by rw [e4]; exact hs) (liquidStep (pnum b) (pnum q) (pnum b))
  refine ⟨Z, a1, a2, fun n => ?_⟩
  obtain ⟨z, b1, b2⟩ := a3 n
  rw [e4] at b2
  exact ⟨z, by rw [c3]; exact b1, b2⟩

/-- `van_der_waals`, vapour: the equation it solves is the Redlich-Kwong shaped one with van der Waals' constants (C43). -/
theorem C102_van_der_waals_vapour {a B δ : ℝ} (hB : B = 1 / 8 * (P.val / Pc.val) / (T.val / Tc.val))
    (ha : a = 27 / 64 * (P.val / Pc.val) / (T.val / Tc.val) ^ 2) (ha4 : a < 1 / 4)
    (hδ : δ = 56 * A.ε * (1 + B + 2 * a)) (hs : δ ≤ (1 - 4 * a) / 2) :
    ∃ Z, CubicEOS 1 0 R T.val P.val (27 / 64 * R ^ 2 * Tc.val ^ 2 / Pc.val) (1 / 8 * R * Tc.val / Pc.val)
        (Z * R * T.val / P.val) ∧
      (∀ w, CubicEOS 1 0 R T.val P.val (27 / 64 * R ^ 2 * Tc.val ^ 2 / Pc.val) (1 / 8 * R * Tc.val / Pc.val)
        (w * R * T.val / P.val) → w ≤ Z) ∧
      ∀ n : ℕ, ∃ z : Fl A, vdwCallFl u v T P Tc Pc c!"vapor" n = .ok (.num z) ∧
        |z.val - Z| ≤ (4 * a) ^ (n + 1) * (1 / 2 + B) + δ / (1 - 4 * a) := by
  have ht : 0 < T.val / Tc.val := by positivity
  have hiff := fun z => eos_iff (a := 27 / 64 * R ^ 2 * Tc.val ^ 2 / Pc.val)
    (b := 1 / 8 * R * Tc.val / Pc.val) hR hT hP (by positivity) (by positivity) z
  rw [mul_div_assoc] at hB
  have e1 : 1 / 8 * R * Tc.val / Pc.val * P.val / (R * T.val) = B := by rw [hB]; field_simp
  have e2 : 27 / 64 * R ^ 2 * Tc.val ^ 2 / Pc.val / (1 / 8 * R * Tc.val / Pc.val * (R * T.val)) =
      27 / 64 * 1 / (1 / 8 * (T.val / Tc.val)) := by field_simp
  have e4 : 27 / 64 * 1 / (1 / 8 * (T.val / Tc.val)) * B = a := by rw [ha, hB]; field_simp
  obtain ⟨b, q, c1, c2, c3⟩ := vdw_eval_fl (u := u) (P := P) hv hT hTc hPc
  simp only [hiff, e1, e2]
  rw [← hB] at c1
  have hB0 : 0 < B := by rw [hB]; positivity
  have hq0 : 0 < 27 / 64 * 1 / (1 / 8 * (T.val / Tc.val)) := by positivity
  generalize 27 / 64 * 1 / (1 / 8 * (T.val / Tc.val)) = q' at *
  have ha0 : 0 < a := by rw [← e4]; positivity
  have he := A.nonneg
  have h56 : 56 * A.ε ≤ 1 / 2 := by nlinarith
  obtain ⟨Z, a1, a2, a3⟩ := vapour_disturbed hB0 hq0 (by rw [e4]; exact ha4) c1 (by positivity)
    (Within.of_close c2 (M := q') (by rw [abs_of_pos hq0])) (by linarith) (δ := δ) (by rw [e4, hδ]; ring)
    (by rw [e4]; exact hs) (liquidStep (pnum b) (pnum q) (pnum b))
  refine ⟨Z, a1, a2, fun n => ?_⟩
  obtain ⟨z, b1, b2⟩ := a3 n
  rw [e4] at b2
  exact ⟨z, by rw [c3]; exact b1, b2⟩

theorem C102_van_der_waals_liquid {B a L Z : ℝ} (hB : B = 1 / 8 * (P.val / Pc.val) / (T.val / Tc.val))
    (ha : a = 27 / 64 * (P.val / Pc.val) / (T.val / Tc.val) ^ 2) (hZ : 0 < Z) (hZ1 : Z ≤ 1 / 3)
    (h0 : CubicEOS 1 0 R T.val P.val (27 / 64 * R ^ 2 * Tc.val ^ 2 / Pc.val) (1 / 8 * R * Tc.val / Pc.val)
      (Z * R * T.val / P.val))
    (hL : L = (4 * Z + B + B ^ 2) / a) (hL1 : L < 1) (hs : 580 * A.ε ≤ 1 - L) (n : ℕ) :
    ∃ z : Fl A, vdwCallFl u v T P Tc Pc c!"liquid" n = .ok (.num z) ∧
      |z.val - Z| ≤ (L ^ (n + 1) + 580 * A.ε / (1 - L)) * Z := by
  have ht : 0 < T.val / Tc.val := by positivity
  have hiff := fun z => eos_iff (a := 27 / 64 * R ^ 2 * Tc.val ^ 2 / Pc.val)
    (b := 1 / 8 * R * Tc.val / Pc.val) hR hT hP (by positivity) (by positivity) z
  rw [mul_div_assoc] at hB
  have e1 : 1 / 8 * R * Tc.val / Pc.val * P.val / (R * T.val) = B := by rw [hB]; field_simp
  have e2 : 27 / 64 * R ^ 2 * Tc.val ^ 2 / Pc.val / (1 / 8 * R * Tc.val / Pc.val * (R * T.val)) =
      27 / 64 * 1 / (1 / 8 * (T.val / Tc.val)) := by field_simp
  have e4 : 27 / 64 * 1 / (1 / 8 * (T.val / Tc.val)) * B = a := by rw [ha, hB]; field_simp
  obtain ⟨b, q, c1, c2, c3⟩ := vdw_eval_fl (u := u) (P := P) hv hT hTc hPc
  rw [hiff, e1, e2] at h0
  rw [← hB] at c1
  have hB0 : 0 < B := by rw [hB]; positivity
  have hq0 : 0 < 27 / 64 * 1 / (1 / 8 * (T.val / Tc.val)) := by positivity
  generalize 27 / 64 * 1 / (1 / 8 * (T.val / Tc.val)) = q' at *
  obtain ⟨z, b1, b2⟩ := liquid_disturbed hB0 hq0 hZ hZ1 h0 (L := L) (κ := 29 * A.ε) (by rw [e4, hL]; ring) hL1 c1 c2
    (by ring) (by linarith) (vapourStep (pnum b) (pnum q) (pnum 1)) n
  refine ⟨z, by rw [c3]; exact b1, b2.trans (le_of_eq ?_)⟩
  ring

/-- Soave-Redlich-Kwong, liquid: as for Redlich-Kwong, with the cancellation `Q / a` in the computation of `q`. -/
theorem C102_soave_liquid {w : Fl A} {a B Q L κ Z : ℝ}
    (hα : 1 + (480 / 1000 + 1574 / 1000 * w.val - 176 / 1000 * w.val ^ 2) * (1 - Real.sqrt (T.val / Tc.val)) ≠ 0)
    (hB : B = 8664 / 100000 * (P.val / Pc.val) / (T.val / Tc.val))
    (ha : a = 42748 / 100000 * (1 + (480 / 1000 + 1574 / 1000 * w.val - 176 / 1000 * w.val ^ 2) *
      (1 - Real.sqrt (T.val / Tc.val))) ^ 2 * (P.val / Pc.val) / (T.val / Tc.val) ^ 2)
    (hQ : Q = 42748 / 100000 * (1 + (480 / 1000 + 1574 / 1000 * |w.val| + 176 / 1000 * w.val ^ 2) *
      (1 + Real.sqrt (T.val / Tc.val))) ^ 2 * (P.val / Pc.val) / (T.val / Tc.val) ^ 2)
    (hZ : 0 < Z) (hZ1 : Z ≤ 1 / 3) (h0 : SoaveEOS R T.val P.val Tc.val Pc.val w.val (Z * R * T.val / P.val))
    (hL : L = (4 * Z + B + B ^ 2) / a) (hL1 : L < 1) (hκ : κ = (96 * (Q / a) + 23) * A.ε) (hs : 20 * κ ≤ 1 - L) (n : ℕ) :
    ∃ z : Fl A, srkCallFl u v T P Tc Pc c!"liquid" w n = .ok (.num z) ∧
      |z.val - Z| ≤ (L ^ (n + 1) + 20 * κ / (1 - L)) * Z := by
  have ht : 0 < T.val / Tc.val := by positivity
  obtain ⟨b, q, c1, c2, c3⟩ := srk_eval_fl (u := u) (P := P) hv hT hTc hPc w
  rw [mul_div_assoc] at hB
  unfold SoaveEOS at h0
  generalize 1 + (480 / 1000 + 1574 / 1000 * w.val - 176 / 1000 * w.val ^ 2) * (1 - Real.sqrt (T.val / Tc.val)) = α at *
  generalize 1 + (480 / 1000 + 1574 / 1000 * |w.val| + 176 / 1000 * w.val ^ 2) * (1 + Real.sqrt (T.val / Tc.val)) = α' at *
  have hα2 : 0 < α ^ 2 := by positivity
  have hiff := fun z => eos_iff (a := 42748 / 100000 * R ^ 2 * Tc.val ^ 2 / Pc.val * α ^ 2)
    (b := 8664 / 100000 * R * Tc.val / Pc.val) hR hT hP (by positivity) (by positivity) z
  have e1 : 8664 / 100000 * R * Tc.val / Pc.val * P.val / (R * T.val) = B := by rw [hB]; field_simp
  have e2 : 42748 / 100000 * R ^ 2 * Tc.val ^ 2 / Pc.val * α ^ 2 / (8664 / 100000 * R * Tc.val / Pc.val * (R * T.val)) =
      42748 / 100000 * α ^ 2 / (8664 / 100000 * (T.val / Tc.val)) := by field_simp
  have e4 : 42748 / 100000 * α ^ 2 / (8664 / 100000 * (T.val / Tc.val)) * B = a := by
    rw [ha, hB]; field_simp
  have e5 : 42748 / 100000 * α' ^ 2 / (8664 / 100000 * (T.val / Tc.val)) * B = Q := by
    rw [hQ, hB]; field_simp
  rw [hiff, e1, e2] at h0
  rw [← hB] at c1
  have hB0 : 0 < B := by rw [hB]; positivity
  have hq0 : 0 < 42748 / 100000 * α ^ 2 / (8664 / 100000 * (T.val / Tc.val)) := by positivity
  have hq1 : 0 ≤ 42748 / 100000 * α' ^ 2 / (8664 / 100000 * (T.val / Tc.val)) := by positivity
  generalize 42748 / 100000 * α ^ 2 / (8664 / 100000 * (T.val / Tc.val)) = q' at *
  generalize 42748 / 100000 * α' ^ 2 / (8664 / 100000 * (T.val / Tc.val)) = Q' at *
  have ha0 : 0 < a := by rw [← e4]; positivity
  have he := A.nonneg
  have e6 : Q' / q' = Q / a := by rw [← e4, ← e5]; field_simp
  have hQa : 0 ≤ Q / a := by rw [← e6]; positivity
  have hL0 : 0 ≤ L := by rw [hL]; positivity
  have hκ2 : (96 * (Q / a)) * A.ε + 23 * A.ε ≤ 1 / 20 := by rw [hκ] at hs; linarith
  have hp0 : 0 ≤ (96 * (Q / a)) * A.ε := by positivity
  have e7 : 4 * (24 * A.ε) * Q' / |q'| = 96 * (Q / a) * A.ε := by rw [abs_of_pos hq0, ← e6]; ring
  have c4 : Close (96 * (Q / a) * A.ε) q.val q' := by
    have := close_of_scaled (k := 24 * A.ε) (by positivity) (by linarith) hq1 c2.2 (by rw [e7]; linarith) hq0.ne'
    rwa [e7] at this
  obtain ⟨z, b1, b2⟩ := liquid_disturbed hB0 hq0 hZ hZ1 h0 (L := L) (κ := κ) (by rw [e4, hL]; ring) hL1 c1 c4
    (by rw [hκ]; ring) (by linarith) (vapourStep (pnum b) (pnum q) (pnum 1)) n
  exact ⟨z, by rw [c3]; exact b1, b2⟩

/-- Once enough iterations are made, twice the bound on the rounding errors is all that is left, however many more follow. -/
theorem C102_settles {a B δ : ℝ} (hB : B = 8664 / 100000 * (P.val / Pc.val) / (T.val / Tc.val))
    (ha : a = 42748 / 100000 * (P.val / Pc.val) / ((T.val / Tc.val) ^ 2 * Real.sqrt (T.val / Tc.val))) (ha4 : a < 1 / 4)
    (hδ : δ = 60 * A.ε * (1 + B + 2 * a)) (hs : δ ≤ (1 - 4 * a) / 2) (hε : 0 < A.ε) :
    ∃ Z, RedlichKwongEOS R T.val P.val Tc.val Pc.val (Z * R * T.val / P.val) ∧
      ∃ N : ℕ, ∀ n : ℕ, N ≤ n → ∃ z : Fl A, rkCallFl u v T P Tc Pc c!"vapor" n = .ok (.num z) ∧
        |z.val - Z| ≤ 2 * δ / (1 - 4 * a) := by
  obtain ⟨Z, h1, -, h2⟩ := C102_redlich_kwong_vapour hR (u := u) hv hT hP hTc hPc hB ha ha4 hδ hs
  have ht : 0 < T.val / Tc.val := by positivity
  have hts := Real.sqrt_pos.mpr ht
  have ha0 : 0 < a := by rw [ha]; positivity
  have hB0 : 0 < B := by rw [hB]; positivity
  have hδ0 : 0 < δ / (1 - 4 * a) := div_pos (by rw [hδ]; positivity) (by linarith)
  obtain ⟨N, hN⟩ := exists_pow_lt_of_lt_one (div_pos hδ0 (show 0 < 1 / 2 + B by positivity)) (show 4 * a < 1 by linarith)
  refine ⟨Z, h1, N, fun n hn => ?_⟩
  obtain ⟨z, b1, b2⟩ := h2 n
  refine ⟨z, b1, b2.trans ?_⟩
  have h3 : (4 * a) ^ (n + 1) ≤ (4 * a) ^ N := pow_le_pow_of_le_one (by positivity) (by linarith) (by omega)
  have h4 : (4 * a) ^ (n + 1) * (1 / 2 + B) ≤ δ / (1 - 4 * a) := by
    rw [← le_div_iff₀ (by positivity)]
    exact h3.trans hN.le
  have h5 : 2 * δ / (1 - 4 * a) = δ / (1 - 4 * a) + δ / (1 - 4 * a) := by ring
  linarith

end

/-! ## Examples in double precision -/

theorem double_eps : 0 < double.ε ∧ double.ε ≤ 2⁻¹ ^ 52 := by
  constructor
  · show 0 < -Real.log (1 - 2⁻¹ ^ 53)
    have := Real.log_neg (show (0 : ℝ) < 1 - 2⁻¹ ^ 53 by norm_num) (by norm_num)
    linarith
  · show -Real.log (1 - 2⁻¹ ^ 53) ≤ _
    have := Real.one_sub_inv_le_log_of_pos (show (0 : ℝ) < 1 - 2⁻¹ ^ 53 by norm_num)
    have h2 : (1 - (2⁻¹ : ℝ) ^ 53)⁻¹ ≤ 1 + 2⁻¹ ^ 52 := by norm_num
    linarith

/-- A vapour at four times the critical temperature and a quarter of the critical pressure: from the eighth iteration on all
results are within `10⁻¹³` of the solution. -/
example : ∃ Z, RedlichKwongEOS 8 1200 1 300 4 (Z * 8 * 1200 / 1) ∧ ∀ n : ℕ, 8 ≤ n → ∃ z : Fl double,
    rkCallFl c!"K" c!"atm" ⟨1200⟩ ⟨1⟩ ⟨300⟩ ⟨4⟩ c!"vapor" n = .ok (.num z) ∧ |z.val - Z| ≤ 1 / 10 ^ 13 := by
  obtain ⟨he, he'⟩ := double_eps
  norm_num at he'
  have h4 : Real.sqrt 4 = 2 := by
    rw [show (4 : ℝ) = 2 ^ 2 by norm_num]; exact Real.sqrt_sq (by norm_num)
  have ha : (42748 / 100000 * (1 / 4) / (4 ^ 2 * 2) : ℝ) =
      42748 / 100000 * ((⟨1⟩ : Fl double).val / (⟨4⟩ : Fl double).val) / (((⟨1200⟩ : Fl double).val / (⟨300⟩ : Fl double).val) ^ 2 *
        Real.sqrt ((⟨1200⟩ : Fl double).val / (⟨300⟩ : Fl double).val)) := by
    rw [show ((⟨1200⟩ : Fl double).val / (⟨300⟩ : Fl double).val) = 4 by norm_num, h4]
  obtain ⟨Z, h1, -, h2⟩ := C102_redlich_kwong_vapour (R := 8) (by norm_num) (u := c!"K") (v := c!"atm") (by decide)
    (A := double) (T := ⟨1200⟩) (P := ⟨1⟩) (Tc := ⟨300⟩) (Pc := ⟨4⟩) (by norm_num) (by norm_num) (by norm_num) (by norm_num)
    rfl ha (by norm_num) rfl (by norm_num; linarith)
  refine ⟨Z, h1, fun n hn => ?_⟩
  obtain ⟨z, b1, b2⟩ := h2 n
  refine ⟨z, b1, b2.trans ?_⟩
  have h3 : (4 * (42748 / 100000 * (1 / 4) / (4 ^ 2 * 2)) : ℝ) ^ (n + 1) ≤ (4 * (42748 / 100000 * (1 / 4) / (4 ^ 2 * 2))) ^ 9 :=
    pow_le_pow_of_le_one (by norm_num) (by norm_num) (by omega)
  have h5 : (4 * (42748 / 100000 * (1 / 4) / (4 ^ 2 * 2)) : ℝ) ^ (n + 1) * (1 / 2 + 8664 / 100000 * (1 / 4) / (1200 / 300)) ≤
      1 / 2 / 10 ^ 13 := by
    refine (mul_le_mul_of_nonneg_right h3 (by norm_num)).trans (by norm_num)
  norm_num at h5 ⊢
  linarith

/-- A liquid with `B = 1/50` and `Z = 1/40`. -/
example (n : ℕ) : ∃ z : Fl double,
    vdwCallFl c!"K" c!"atm" ⟨3375 / 1000⟩ ⟨54 / 100⟩ ⟨1119375 / 100000⟩ ⟨1119375 / 100000⟩ c!"liquid" n = .ok (.num z) ∧
      |z.val - 1 / 40| ≤ ((3 / 5) ^ (n + 1) + 1 / 10 ^ 12) * (1 / 40) := by
  obtain ⟨he, he'⟩ := double_eps
  norm_num at he'
  obtain ⟨z, h1, h2⟩ := C102_van_der_waals_liquid (R := 1) one_pos (u := c!"K") (v := c!"atm") (by decide)
    (A := double) (T := ⟨3375 / 1000⟩) (P := ⟨54 / 100⟩) (Tc := ⟨1119375 / 100000⟩) (Pc := ⟨1119375 / 100000⟩) (by norm_num)
    (by norm_num) (by norm_num) (by norm_num) (Z := 1 / 40) rfl rfl (by norm_num) (by norm_num)
    (by unfold CubicEOS; norm_num) rfl (by norm_num) (by norm_num; linarith) n
  refine ⟨z, h1, h2.trans (mul_le_mul_of_nonneg_right (add_le_add (pow_le_pow_left₀ ?_ ?_ _) ?_) (by norm_num))⟩
  · norm_num
  · norm_num
  · norm_num
    linarith

end Verif
