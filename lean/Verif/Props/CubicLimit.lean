import Verif.Props.Cubic
import Verif.Lemmas.Iterate
import Mathlib.Topology.Order.IntermediateValue

/-!
# C85: more iterations of the equations of state

C43 says what a run that has converged solves; this file says when the runs converge, to which root of the cubic, and
how fast.
-/

namespace Verif

open Filter Topology Set

/-- The cubic `Z³ - Z² + (A - B - B²) Z - A B` of the Redlich-Kwong family, with `A = q B`. -/
def eosCubic (B q Z : ℝ) : ℝ := Z ^ 3 - Z ^ 2 + (q * B - B - B ^ 2) * Z - q * B * B

/-- Running the function with more and more iterations gives numbers that approach `Z` from one side. -/
def Approaches (call : ℤ → PyM (Val ℝ)) (Z : ℝ) : Prop :=
  ∃ zs : ℕ → ℝ, (∀ n : ℕ, call n = .ok (.num (zs n))) ∧ (Antitone zs ∨ Monotone zs) ∧ Tendsto zs atTop (𝓝 Z)

/-! ## The two iterations as functions of a number -/

noncomputable def vapourMap (B q z : ℝ) : ℝ := 1 + B - q * B * ((z - B) / (z * (z + B)))

noncomputable def liquidMap (B q z : ℝ) : ℝ := B + z * (z + B) * ((1 + B - z) / (q * B))

theorem vapourStep_num {B q z : ℝ} (hB : 0 < B) (hz : 0 < z) :
    vapourStep (pnum B) (pnum q) (.ok (.num z)) = .ok (.num (vapourMap B q z)) := by
  have h : z * (z + B) ≠ 0 := by positivity
  simp only [vapourStep, pnum, ok_mul, ok_div, ok_add, ok_sub, Val.add, Val.sub, Val.mul, Val.div, pyDiv_ne h, vapourMap]

theorem liquidStep_num {B q : ℝ} (hB : 0 < B) (hq : 0 < q) (z : ℝ) :
    liquidStep (pnum B) (pnum q) (.ok (.num z)) = .ok (.num (liquidMap B q z)) := by
  have h : q * B ≠ 0 := by positivity
  simp only [liquidStep, pnum, ok_mul, ok_div, ok_add, ok_sub, Val.add, Val.sub, Val.mul, Val.div, pyDiv_ne h, liquidMap]

theorem vapour_run {B q : ℝ} (hB : 0 < B) (hpos : ∀ n, 0 < (vapourMap B q)^[n] 1) (fl : PyM (Val ℝ)) (n : ℕ) :
    iterateState c!"vapor" n (pnum B) (pnum q) (vapourStep (pnum B) (pnum q) (pnum 1)) fl =
      .ok (.num ((vapourMap B q)^[n + 1] 1)) := by
  have h : ∀ n : ℕ, loop (vapourStep (pnum B) (pnum q)) n (vapourStep (pnum B) (pnum q) (pnum 1)) =
      .ok (.num ((vapourMap B q)^[n + 1] 1)) := by
    intro n
    induction n with
    | zero => exact vapourStep_num hB one_pos
    | succ n ih =>
      rw [loop_succ, ih, vapourStep_num hB (hpos _), ← Function.iterate_succ_apply' (vapourMap B q)]
  exact h n

theorem liquid_run {B q : ℝ} (hB : 0 < B) (hq : 0 < q) (fv : PyM (Val ℝ)) (n : ℕ) :
    iterateState c!"liquid" n (pnum B) (pnum q) fv (liquidStep (pnum B) (pnum q) (pnum B)) =
      .ok (.num ((liquidMap B q)^[n + 1] B)) := by
  have h : ∀ n : ℕ, loop (liquidStep (pnum B) (pnum q)) n (liquidStep (pnum B) (pnum q) (pnum B)) =
      .ok (.num ((liquidMap B q)^[n + 1] B)) := by
    intro n
    induction n with
    | zero => exact liquidStep_num hB hq B
    | succ n ih =>
      rw [loop_succ, ih, liquidStep_num hB hq, ← Function.iterate_succ_apply' (liquidMap B q)]
  exact h n

theorem eosCubic_root {B q Z : ℝ} : eosCubic B q Z = 0 ↔ Z * (Z + B) * (1 + B - Z) = q * B * (Z - B) := by
  unfold eosCubic
  constructor <;> intro h <;> linear_combination -h

theorem vapourMap_fix {B q Z : ℝ} (hB : 0 < B) (hZ : 0 < Z) : vapourMap B q Z = Z ↔ eosCubic B q Z = 0 := by
  have h : Z * (Z + B) ≠ 0 := by positivity
  rw [eosCubic_root, vapourMap, mul_div_assoc', sub_eq_iff_eq_add', ← sub_eq_iff_eq_add, eq_div_iff h]
  constructor <;> intro h <;> linear_combination h

theorem liquidMap_fix {B q Z : ℝ} (hB : 0 < B) (hq : 0 < q) : liquidMap B q Z = Z ↔ eosCubic B q Z = 0 := by
  have h : q * B ≠ 0 := by positivity
  rw [eosCubic_root, liquidMap, mul_div_assoc', ← eq_sub_iff_add_eq', div_eq_iff h]
  constructor <;> intro h <;> linear_combination h

/-! ## The vapour iteration -/

theorem vapourMap_sub {B q x y : ℝ} (hB : 0 < B) (hx : 0 < x) (hy : 0 < y) :
    vapourMap B q y - vapourMap B q x =
      q * B * ((y - x) * (x * y - B * (x + y) - B ^ 2) / (x * y * ((x + B) * (y + B)))) := by
  unfold vapourMap
  have h1 : x + B ≠ 0 := by positivity
  have h2 : y + B ≠ 0 := by positivity
  field_simp
  ring

theorem vapourMap_mono {B q : ℝ} (hB : 0 < B) (hq : 0 < q) {a b : ℝ} (ha : (1 + Real.sqrt 2) * B ≤ a) :
    MonotoneOn (vapourMap B q) (Icc a b) := by
  have h2 : Real.sqrt 2 * Real.sqrt 2 = 2 := Real.mul_self_sqrt (by norm_num)
  have hs : 0 < Real.sqrt 2 := by positivity
  intro x hx y hy hxy
  have hx' : Real.sqrt 2 * B ≤ x - B := by linarith [hx.1]
  have hy' : Real.sqrt 2 * B ≤ y - B := by linarith [hy.1]
  have hsB : 0 < Real.sqrt 2 * B := by positivity
  have hxp : 0 < x := by linarith
  have hyp : 0 < y := by linarith
  have hp : 2 * B ^ 2 ≤ (x - B) * (y - B) := by
    calc 2 * B ^ 2 = (Real.sqrt 2 * B) * (Real.sqrt 2 * B) := by linear_combination (-B ^ 2) * h2
      _ ≤ _ := mul_le_mul hx' hy' hsB.le (by linarith)
  have h3 : 0 ≤ (y - x) * (x * y - B * (x + y) - B ^ 2) := mul_nonneg (by linarith) (by linarith)
  have := vapourMap_sub (q := q) hB hxp hyp
  have h4 : 0 ≤ vapourMap B q y - vapourMap B q x := by rw [this]; positivity
  linarith

theorem vapourMap_cont {B q : ℝ} (hB : 0 < B) {a b : ℝ} (ha : 0 < a) : ContinuousOn (vapourMap B q) (Icc a b) := by
  unfold vapourMap
  refine ContinuousOn.sub continuousOn_const (ContinuousOn.mul continuousOn_const (ContinuousOn.div ?_ ?_ ?_))
  · exact (continuous_id.sub continuous_const).continuousOn
  · exact (continuous_id.mul (continuous_id.add continuous_const)).continuousOn
  · intro x hx
    have : 0 < x := lt_of_lt_of_le ha hx.1
    positivity

/-- Beyond one the left side of the equation falls strictly faster than the right side grows. -/
theorem beyond_one {B x y : ℝ} (hB : 0 < B) (hB1 : B < 1) (hx : 1 ≤ x) (hxy : x < y) :
    y * (y + B) * (1 + B - y) * (x - B) < x * (x + B) * (1 + B - x) * (y - B) := by
  have e : x * (x + B) * (1 + B - x) * (y - B) - y * (y + B) * (1 + B - y) * (x - B) =
      (y - x) * (x * y * (x + y - 1) - B * (x ^ 2 + x * y + y ^ 2 - x - y) + B ^ 2 * (1 + B)) := by ring
  obtain ⟨u, rfl⟩ : ∃ u, x = 1 + u := ⟨x - 1, by ring⟩
  obtain ⟨w, rfl⟩ : ∃ w, y = 1 + w := ⟨y - 1, by ring⟩
  have hu : 0 ≤ u := by linarith
  have hw : 0 ≤ w := by linarith
  have huw : 0 ≤ u * w := mul_nonneg hu hw
  have h0 : 0 ≤ (1 + u) ^ 2 + (1 + u) * (1 + w) + (1 + w) ^ 2 - (1 + u) - (1 + w) := by nlinarith [sq_nonneg u, sq_nonneg w]
  have h1 : B * ((1 + u) ^ 2 + (1 + u) * (1 + w) + (1 + w) ^ 2 - (1 + u) - (1 + w)) ≤
      1 * ((1 + u) ^ 2 + (1 + u) * (1 + w) + (1 + w) ^ 2 - (1 + u) - (1 + w)) := mul_le_mul_of_nonneg_right hB1.le h0
  have h2 : (1 + u) ^ 2 + (1 + u) * (1 + w) + (1 + w) ^ 2 - (1 + u) - (1 + w) ≤ (1 + u) * (1 + w) * (1 + u + (1 + w) - 1) := by
    nlinarith [mul_nonneg huw hu, mul_nonneg huw hw]
  have h3 : 0 < B ^ 2 * (1 + B) := by positivity
  have := mul_pos (show 0 < 1 + w - (1 + u) by linarith) (show 0 < (1 + u) * (1 + w) * (1 + u + (1 + w) - 1) -
    B * ((1 + u) ^ 2 + (1 + u) * (1 + w) + (1 + w) ^ 2 - (1 + u) - (1 + w)) + B ^ 2 * (1 + B) by linarith)
  linarith

/-- If the cubic has a root beyond `(1 + √2) B`, the vapour iteration approaches the largest root of the cubic. -/
theorem vapour_approaches {B q : ℝ} (hB : 0 < B) (hq : 0 < q) (hs : (1 + Real.sqrt 2) * B ≤ 1) {r : ℝ}
    (hr : (1 + Real.sqrt 2) * B ≤ r) (h0 : eosCubic B q r = 0) (fl : PyM (Val ℝ)) :
    ∃ Z, eosCubic B q Z = 0 ∧ (∀ w, eosCubic B q w = 0 → w ≤ Z) ∧
      Approaches (fun n => iterateState c!"vapor" n (pnum B) (pnum q) (vapourStep (pnum B) (pnum q) (pnum 1)) fl) Z := by
  have hs2 : 0 < Real.sqrt 2 := by positivity
  have hsp : 0 < (1 + Real.sqrt 2) * B := by positivity
  have hB1 : B < 1 := by nlinarith
  have hrp : 0 < r := by linarith
  have hqB : 0 < q * B := by positivity
  rcases le_total (vapourMap B q 1) 1 with h1 | h1
  · have hle : ∀ w, eosCubic B q w = 0 → w ≤ 1 := by
      intro w hw
      by_contra hc
      rw [not_le] at hc
      rw [eosCubic_root] at hw
      have hb := beyond_one hB hB1 le_rfl hc
      rw [hw] at hb
      have h2 : B * (1 + B) ≤ q * B * (1 - B) := by
        unfold vapourMap at h1
        have h3 : B ≤ q * B * ((1 - B) / (1 * (1 + B))) := by linarith
        rw [mul_div_assoc', le_div_iff₀ (by positivity)] at h3
        linarith
      have h3 := mul_le_mul_of_nonneg_right h2 (show 0 ≤ w - B by linarith)
      linarith
    obtain ⟨Z, hZ, hf, hmax, hanti, hlim⟩ := iterate_down (hle r h0) ((vapourMap_fix hB hrp).mpr h0) h1
      (vapourMap_mono hB hq hr) (vapourMap_cont hB hrp)
    have hZp : 0 < Z := lt_of_lt_of_le hrp hZ.1
    refine ⟨Z, (vapourMap_fix hB hZp).mp hf, ?_, fun n => (vapourMap B q)^[n + 1] 1, ?_, ?_, ?_⟩
    · intro w hw
      rcases le_total w r with h | h
      · exact h.trans hZ.1
      · exact hmax w ⟨h, hle w hw⟩ ((vapourMap_fix hB (lt_of_lt_of_le hrp h)).mpr hw)
    · intro n
      refine vapour_run hB (fun n => lt_of_lt_of_le hZp ?_) fl n
      exact le_of_tendsto hlim (eventually_atTop.mpr ⟨n, fun m hm => hanti hm⟩)
    · exact Or.inl fun a b h => hanti (Nat.succ_le_succ h)
    · exact (tendsto_add_atTop_iff_nat 1).mpr hlim
  · have hend : vapourMap B q (1 + B) ≤ 1 + B := by
      unfold vapourMap
      have : 0 ≤ q * B * ((1 + B - B) / ((1 + B) * (1 + B + B))) := by
        rw [show (1 + B - B) = 1 by ring]; positivity
      linarith
    obtain ⟨Z, hZ, hf, hmin, hmono, hlim⟩ := iterate_up (show (1 : ℝ) ≤ 1 + B by linarith) h1 hend
      (vapourMap_mono hB hq hs) (vapourMap_cont hB one_pos)
    have hZp : 0 < Z := lt_of_lt_of_le one_pos hZ.1
    have hZ0 := (vapourMap_fix hB hZp).mp hf
    refine ⟨Z, hZ0, ?_, fun n => (vapourMap B q)^[n + 1] 1, ?_, ?_, ?_⟩
    · intro w hw
      by_contra hc
      rw [not_le] at hc
      have hb := beyond_one hB hB1 hZ.1 hc
      rw [eosCubic_root] at hw hZ0
      rw [hw, hZ0] at hb
      linarith
    · intro n
      refine vapour_run hB (fun n => lt_of_lt_of_le one_pos ?_) fl n
      simpa using hmono (Nat.zero_le n)
    · exact Or.inr fun a b h => hmono (Nat.succ_le_succ h)
    · exact (tendsto_add_atTop_iff_nat 1).mpr hlim

/-- A root beyond `(1 + √2) B` exists when `q ≤ (3 + 2 √2) (1 - √2 B)`. -/
theorem root_beyond {B q : ℝ} (hB : 0 < B) (hq : 0 < q) (hs : (1 + Real.sqrt 2) * B ≤ 1)
    (h : q ≤ (3 + 2 * Real.sqrt 2) * (1 - Real.sqrt 2 * B)) :
    ∃ r, (1 + Real.sqrt 2) * B ≤ r ∧ eosCubic B q r = 0 := by
  have h2 : Real.sqrt 2 * Real.sqrt 2 = 2 := Real.mul_self_sqrt (by norm_num)
  have hs2 : 0 < Real.sqrt 2 := by positivity
  have hc : Continuous (eosCubic B q) := by unfold eosCubic; fun_prop
  have h1 : eosCubic B q ((1 + Real.sqrt 2) * B) ≤ 0 := by
    have e : eosCubic B q ((1 + Real.sqrt 2) * B) =
        Real.sqrt 2 * B ^ 2 * (q - (3 + 2 * Real.sqrt 2) * (1 - Real.sqrt 2 * B)) := by
      unfold eosCubic
      generalize Real.sqrt 2 = s at *
      have h3 : s ^ 2 = 2 := by rw [sq]; exact h2
      linear_combination (B ^ 3 * (s + 3) - B ^ 2 - 2 * s * B ^ 3 + (2 * B ^ 2 - 3 * B ^ 3)) * h3
    rw [e]
    exact mul_nonpos_of_nonneg_of_nonpos (by positivity) (by linarith)
  have h3 : 0 ≤ eosCubic B q (1 + B) := by
    have : eosCubic B q (1 + B) = q * B := by unfold eosCubic; ring
    rw [this]; positivity
  obtain ⟨r, hr, h0⟩ := intermediate_value_Icc (show (1 + Real.sqrt 2) * B ≤ 1 + B by nlinarith) hc.continuousOn
    (show (0 : ℝ) ∈ Icc _ _ from ⟨h1, h3⟩)
  exact ⟨r, hr.1, h0⟩


theorem vapourMap_ge {B q y : ℝ} (hB : 0 < B) (hq : 0 < q) (hy : 1 / 2 ≤ y) : 1 + B - 2 * (q * B) ≤ vapourMap B q y := by
  have hqB : 0 < q * B := by positivity
  have h3 : (y - B) / (y * (y + B)) ≤ 2 := by
    rw [div_le_iff₀ (by positivity)]
    nlinarith
  have h4 := mul_le_mul_of_nonneg_left h3 hqB.le
  unfold vapourMap
  linarith

/-- For `q B < 1/4` the cubic has a largest root, and every step from above `1/2` shrinks the distance to it by the factor
`4 q B`. -/
theorem vapour_contracts {B q : ℝ} (hB : 0 < B) (hq : 0 < q) (hA : q * B < 1 / 4) :
    ∃ Z ∈ Icc (1 / 2) (1 + B), eosCubic B q Z = 0 ∧ (∀ w, eosCubic B q w = 0 → w ≤ Z) ∧
      ∀ y ∈ Ici (1 / 2 : ℝ), |vapourMap B q y - Z| ≤ 4 * (q * B) * |y - Z| := by
  have hqB : 0 < q * B := by positivity
  have hc : Continuous (eosCubic B q) := by unfold eosCubic; fun_prop
  have h1 : eosCubic B q (1 / 2) ≤ 0 := by
    unfold eosCubic
    nlinarith [mul_pos hqB hB]
  have h2 : 0 ≤ eosCubic B q (1 + B) := by
    have : eosCubic B q (1 + B) = q * B := by unfold eosCubic; ring
    rw [this]; positivity
  obtain ⟨Z, hZ, h0⟩ := intermediate_value_Icc (show (1 / 2 : ℝ) ≤ 1 + B by linarith) hc.continuousOn
    (show (0 : ℝ) ∈ Icc _ _ from ⟨h1, h2⟩)
  have hZp : 0 < Z := by linarith [hZ.1]
  have hf := (vapourMap_fix hB hZp).mpr h0
  have hnear : ∀ y ∈ Ici (1 / 2 : ℝ), |vapourMap B q y - Z| ≤ 4 * (q * B) * |y - Z| := by
    intro y hy
    have hy' : (1 / 2 : ℝ) ≤ y := hy
    have hyp : 0 < y := by linarith
    rw [← hf, vapourMap_sub hB hZp hyp, hf, abs_mul, abs_of_pos hqB, abs_div, abs_mul,
      abs_of_pos (show 0 < Z * y * ((Z + B) * (y + B)) by positivity)]
    have h3 : |Z * y - B * (Z + y) - B ^ 2| ≤ (Z + B) * (y + B) := by
      rw [abs_le]
      constructor <;> nlinarith [mul_pos hZp hyp, mul_pos hB hZp, mul_pos hB hyp]
    have h4 : 1 ≤ 4 * (Z * y) := by nlinarith [hZ.1]
    have h5 : |y - Z| * |Z * y - B * (Z + y) - B ^ 2| / (Z * y * ((Z + B) * (y + B))) ≤ 4 * |y - Z| := by
      rw [div_le_iff₀ (by positivity)]
      have h6 := mul_le_mul_of_nonneg_left h3 (abs_nonneg (y - Z))
      have h7 := mul_le_mul_of_nonneg_right h4 (show 0 ≤ |y - Z| * ((Z + B) * (y + B)) by positivity)
      linarith
    have := mul_le_mul_of_nonneg_left h5 hqB.le
    linarith
  refine ⟨Z, hZ, h0, ?_, hnear⟩
  intro w hw
  by_contra hcon
  rw [not_le] at hcon
  have hw1 : (1 / 2 : ℝ) ≤ w := by linarith [hZ.1]
  have := hnear w hw1
  rw [(vapourMap_fix hB (by linarith)).mpr hw] at this
  have hpos : 0 < |w - Z| := abs_pos.mpr (by linarith)
  nlinarith

/-- For `q B < 1/4` the distance to the largest root shrinks by the factor `4 q B` in every step. -/
theorem vapour_rate {B q : ℝ} (hB : 0 < B) (hq : 0 < q) (hA : q * B < 1 / 4) (fl : PyM (Val ℝ)) :
    ∃ Z, eosCubic B q Z = 0 ∧ (∀ w, eosCubic B q w = 0 → w ≤ Z) ∧ ∀ n : ℕ, ∃ z,
      iterateState c!"vapor" n (pnum B) (pnum q) (vapourStep (pnum B) (pnum q) (pnum 1)) fl = .ok (.num z) ∧
      |z - Z| ≤ (4 * (q * B)) ^ (n + 1) * (1 / 2 + B) := by
  have hqB : 0 < q * B := by positivity
  obtain ⟨Z, hZ, h0, hmax, hnear⟩ := vapour_contracts hB hq hA
  have hstay : ∀ y ∈ Ici (1 / 2 : ℝ), vapourMap B q y ∈ Ici (1 / 2 : ℝ) := by
    intro y hy
    have := vapourMap_ge hB hq hy
    show (1 / 2 : ℝ) ≤ _
    linarith
  have hrun := fun n => iterate_near (F := vapourMap B q) (S := Ici (1 / 2)) (L := 4 * (q * B)) (Z := Z) (x := 1)
    (by positivity) hstay hnear (show (1 / 2 : ℝ) ≤ 1 by norm_num) n
  refine ⟨Z, h0, hmax, fun n => ⟨_, vapour_run hB (fun n => ?_) fl n, ?_⟩⟩
  · exact lt_of_lt_of_le (by norm_num) (show (1 / 2 : ℝ) ≤ _ from (hrun n).1)
  · refine (hrun (n + 1)).2.trans (mul_le_mul_of_nonneg_left ?_ (by positivity))
    rw [abs_le]
    constructor <;> linarith [hZ.1, hZ.2]

/-! ## The liquid iteration -/

theorem liquidMap_sub {B q x y : ℝ} : liquidMap B q y - liquidMap B q x =
    (y - x) * (x + y - (x ^ 2 + x * y + y ^ 2) + B * (1 + B)) / (q * B) := by
  unfold liquidMap
  ring

theorem liquid_slope {B r x y : ℝ} (hB : 0 < B) (hr : r ≤ 2 / 3) (hx : x ∈ Icc B r) (hy : y ∈ Icc B r) :
    0 ≤ x + y - (x ^ 2 + x * y + y ^ 2) + B * (1 + B) ∧
      x + y - (x ^ 2 + x * y + y ^ 2) + B * (1 + B) ≤ 2 * r + B * (1 + B) := by
  obtain ⟨x1, x2⟩ := hx
  obtain ⟨y1, y2⟩ := hy
  constructor
  · nlinarith [mul_nonneg (show 0 ≤ x by linarith) (show 0 ≤ 2 / 3 - x by linarith),
      mul_nonneg (show 0 ≤ y by linarith) (show 0 ≤ 2 / 3 - y by linarith),
      mul_nonneg (show 0 ≤ x by linarith) (show 0 ≤ 2 / 3 - y by linarith),
      mul_nonneg (show 0 ≤ y by linarith) (show 0 ≤ 2 / 3 - x by linarith)]
  · nlinarith [sq_nonneg x, sq_nonneg y, mul_nonneg (show 0 ≤ x by linarith) (show 0 ≤ y by linarith)]

theorem liquidMap_mono {B q r : ℝ} (hB : 0 < B) (hq : 0 < q) (hr : r ≤ 2 / 3) :
    MonotoneOn (liquidMap B q) (Icc B r) := by
  intro x hx y hy hxy
  have h1 : 0 ≤ liquidMap B q y - liquidMap B q x := by
    rw [liquidMap_sub]
    have := (liquid_slope hB hr hx hy).1
    have hyx : 0 ≤ y - x := by linarith
    positivity
  linarith

theorem liquid_above {B q w : ℝ} (hB : 0 < B) (hq : 0 < q) (hw : 0 < w) (h : eosCubic B q w = 0) : B ≤ w := by
  by_contra hc
  rw [not_le] at hc
  rw [eosCubic_root] at h
  have h1 : 0 < w * (w + B) * (1 + B - w) := mul_pos (by positivity) (by linarith)
  have h2 : q * B * (w - B) < 0 := mul_neg_of_pos_of_neg (by positivity) (by linarith)
  linarith

/-- If the cubic has a root between `B` and `2/3`, the liquid iteration approaches its smallest positive root, and the
distance shrinks at least by the factor `(2 r + B + B²) / (q B)` in every step. -/
theorem liquid_approaches {B q : ℝ} (hB : 0 < B) (hq : 0 < q) {r : ℝ} (hr : 0 < r) (hr1 : r ≤ 2 / 3)
    (h0 : eosCubic B q r = 0) (fv : PyM (Val ℝ)) :
    ∃ Z, 0 < Z ∧ eosCubic B q Z = 0 ∧ (∀ w, 0 < w → eosCubic B q w = 0 → Z ≤ w) ∧
      Approaches (fun n => iterateState c!"liquid" n (pnum B) (pnum q) fv (liquidStep (pnum B) (pnum q) (pnum B))) Z ∧
      ∀ n : ℕ, ∃ z, iterateState c!"liquid" n (pnum B) (pnum q) fv (liquidStep (pnum B) (pnum q) (pnum B)) = .ok (.num z) ∧
        |z - Z| ≤ ((2 * r + B * (1 + B)) / (q * B)) ^ (n + 1) * (r - B) := by
  have hqB : 0 < q * B := by positivity
  have hBr := liquid_above hB hq hr h0
  have hfr := (liquidMap_fix hB hq).mpr h0
  have hstart : B ≤ liquidMap B q B := by
    unfold liquidMap
    have : 0 ≤ B * (B + B) * ((1 + B - B) / (q * B)) := by
      rw [show 1 + B - B = 1 by ring]; positivity
    linarith
  have hmono := liquidMap_mono hB hq hr1
  obtain ⟨Z, hZ, hf, hmin, hup, hlim⟩ := iterate_up hBr hstart hfr.le hmono
    (by unfold liquidMap; fun_prop)
  have hin : ∀ y ∈ Icc B r, liquidMap B q y ∈ Icc B r := by
    intro y hy
    exact ⟨hstart.trans (hmono ⟨le_rfl, hBr⟩ hy hy.1), hfr ▸ hmono hy ⟨hBr, le_rfl⟩ hy.2⟩
  have hnear : ∀ y ∈ Icc B r, |liquidMap B q y - Z| ≤ (2 * r + B * (1 + B)) / (q * B) * |y - Z| := by
    intro y hy
    obtain ⟨s1, s2⟩ := liquid_slope hB hr1 hZ hy
    rw [← hf, liquidMap_sub, hf, abs_div, abs_of_pos hqB, abs_mul, abs_of_nonneg s1, div_mul_eq_mul_div]
    refine div_le_div_of_nonneg_right ?_ hqB.le
    rw [mul_comm]
    exact mul_le_mul_of_nonneg_right s2 (abs_nonneg _)
  have hrun := fun n => iterate_near (x := B) (show 0 ≤ (2 * r + B * (1 + B)) / (q * B) by positivity) hin hnear
    ⟨le_rfl, hBr⟩ n
  refine ⟨Z, lt_of_lt_of_le hB hZ.1, (liquidMap_fix hB hq).mp hf, ?_, ⟨fun n => (liquidMap B q)^[n + 1] B, ?_, ?_, ?_⟩, ?_⟩
  · intro w hw hw0
    rcases le_total w r with h | h
    · exact hmin w ⟨liquid_above hB hq hw hw0, h⟩ ((liquidMap_fix hB hq).mpr hw0)
    · exact hZ.2.trans h
  · exact fun n => liquid_run hB hq fv n
  · exact Or.inr fun a b h => hup (Nat.succ_le_succ h)
  · exact (tendsto_add_atTop_iff_nat 1).mpr hlim
  · intro n
    refine ⟨_, liquid_run hB hq fv n, (hrun (n + 1)).2.trans (mul_le_mul_of_nonneg_left ?_ (by positivity))⟩
    rw [abs_le]
    constructor <;> linarith [hZ.1, hZ.2]

/-! ## The properties -/

theorem fixed_iff_cubic {B q z : ℝ} (hB : 0 < B) (hq : 0 < q) : FixedZ B q z ↔ eosCubic B q z = 0 := by
  constructor
  · rintro ⟨-, -, -, h⟩
    exact eosCubic_root.mpr h
  · intro h
    have hqB : 0 < q * B * B := by positivity
    rw [eosCubic_root] at h
    refine ⟨?_, ?_, ?_, h⟩
    · rintro rfl
      nlinarith
    · intro h1
      rw [h1, show z = -B by linarith] at h
      nlinarith
    · rintro rfl
      nlinarith

theorem eos_iff {R T P a b : ℝ} (hR : 0 < R) (hT : 0 < T) (hP : 0 < P) (hb : 0 < b) (ha : 0 < a) (z : ℝ) :
    CubicEOS 1 0 R T P a b (z * R * T / P) ↔ eosCubic (b * P / (R * T)) (a / (b * (R * T))) z = 0 := by
  have hB : 0 < b * P / (R * T) := by positivity
  have hq : 0 < a / (b * (R * T)) := by positivity
  rw [← fixed_iff_cubic hB hq]
  refine ⟨?_, eos_of_fix hR hT hP hb.ne' rfl rfl⟩
  rintro ⟨h1, h2, h3⟩
  have k1 : z * R * T / P - b = (z - b * P / (R * T)) * (R * T / P) := by field_simp
  have k2 : (z * R * T / P + 0 * b) * (z * R * T / P + 1 * b) = z * (z + b * P / (R * T)) * (R * T / P) ^ 2 := by
    field_simp; ring
  rw [k2] at h2
  have h4 : z - b * P / (R * T) ≠ 0 := by
    intro h
    rw [h, zero_mul] at k1
    exact h1 (by linarith)
  have h5 := left_ne_zero_of_mul h2
  have h6 := left_ne_zero_of_mul h5
  have h7 := right_ne_zero_of_mul h5
  refine ⟨h6, h7, sub_ne_zero.mp h4, ?_⟩
  rw [k1, k2] at h3
  generalize hB' : b * P / (R * T) = B at *
  have hb' : b = B * (R * T) / P := by rw [← hB']; field_simp
  have ha' : a / (b * (R * T)) * B = a * P / (R * T) ^ 2 := by rw [hb']; field_simp
  rw [ha']
  field_simp at h3
  field_simp
  linarith

/-- Redlich-Kwong, reduced: `b P / (R T)` and `a / (b R T)`. -/
theorem rk_reduced {R T P Tc Pc : ℝ} (hR : 0 < R) (hT : 0 < T) (hP : 0 < P) (hTc : 0 < Tc) (hPc : 0 < Pc) :
    8664 / 100000 * R * Tc / Pc * P / (R * T) = 8664 / 100000 * ((P / Pc) / (T / Tc)) ∧
    42748 / 100000 * R ^ 2 * Tc ^ (5 / 2 : ℝ) / Pc / Real.sqrt T / (8664 / 100000 * R * Tc / Pc * (R * T)) =
      42748 / 100000 * (T / Tc) ^ ((-1 / 2 : ℚ) : ℝ) / (8664 / 100000 * (T / Tc)) := by
  have e1 : (T / Tc) ^ ((-1 / 2 : ℚ) : ℝ) = Real.sqrt Tc / Real.sqrt T := by
    rw [Real.sqrt_eq_rpow, Real.sqrt_eq_rpow, Real.div_rpow hT.le hTc.le]
    push_cast
    rw [show (-1 / 2 : ℝ) = -(1 / 2) by norm_num, Real.rpow_neg hT.le, Real.rpow_neg hTc.le]
    field_simp
  have e2 : Tc ^ (5 / 2 : ℝ) = Tc ^ 2 * Real.sqrt Tc := by
    rw [Real.sqrt_eq_rpow, ← Real.rpow_natCast, ← Real.rpow_add hTc]
    norm_num
  have := Real.sqrt_pos.mpr hT
  constructor
  · field_simp
  · rw [e1, e2]
    field_simp

section
variable {u v : Sym} (hv : v ∈ pressureUnits) {R T P Tc Pc : ℝ} (hR : 0 < R) (hT : 0 < T) (hP : 0 < P) (hTc : 0 < Tc)
  (hPc : 0 < Pc)
include hv hR hT hP hTc hPc

/-- If the Redlich-Kwong equation has a solution `Z₀` beyond `(1 + √2) B`, more iterations of the vapour calculation
approach its largest solution from one side. -/
theorem C85_redlich_kwong_vapour {B : ℝ} (hB : B = 8664 / 100000 * (P / Pc) / (T / Tc))
    (hs : (1 + Real.sqrt 2) * B ≤ 1) {Z₀ : ℝ} (hr : (1 + Real.sqrt 2) * B ≤ Z₀)
    (h0 : RedlichKwongEOS R T P Tc Pc (Z₀ * R * T / P)) :
    ∃ Z, RedlichKwongEOS R T P Tc Pc (Z * R * T / P) ∧ (∀ w, RedlichKwongEOS R T P Tc Pc (w * R * T / P) → w ≤ Z) ∧
      Approaches (rkCall u v T P Tc Pc c!"vapor") Z := by
  have ht : 0 < T / Tc := by positivity
  obtain ⟨e1, e2⟩ := rk_reduced hR hT hP hTc hPc
  rw [mul_div_assoc] at hB
  have hs2 := Real.sqrt_pos.mpr hT
  have hiff := fun z => eos_iff (a := 42748 / 100000 * R ^ 2 * Tc ^ (5 / 2 : ℝ) / Pc / Real.sqrt T)
    (b := 8664 / 100000 * R * Tc / Pc) hR hT hP (by positivity) (by positivity) z
  unfold RedlichKwongEOS at h0 ⊢
  simp only [hiff, e1, e2, ← hB] at h0 ⊢
  obtain ⟨Z, a1, a2, zs, a3, a4⟩ := vapour_approaches (by rw [hB]; positivity) (by positivity) hs hr h0 (liquidStep _ _ _)
  refine ⟨Z, a1, a2, zs, fun n => ?_, a4⟩
  rw [rk_eval hv hT hP hTc hPc, ← hB]
  exact a3 n

omit hv in
/-- Such a solution exists when `q ≤ (3 + 2 √2) (1 - √2 B)`. -/
theorem C85_redlich_kwong_vapour_exists {B : ℝ} (hB : B = 8664 / 100000 * (P / Pc) / (T / Tc))
    (hs : (1 + Real.sqrt 2) * B ≤ 1)
    (hq : 42748 / 100000 / (8664 / 100000 * ((T / Tc) * Real.sqrt (T / Tc))) ≤
      (3 + 2 * Real.sqrt 2) * (1 - Real.sqrt 2 * B)) :
    ∃ Z₀, (1 + Real.sqrt 2) * B ≤ Z₀ ∧ RedlichKwongEOS R T P Tc Pc (Z₀ * R * T / P) := by
  have ht : 0 < T / Tc := by positivity
  obtain ⟨e1, e2⟩ := rk_reduced hR hT hP hTc hPc
  rw [mul_div_assoc] at hB
  have hs2 := Real.sqrt_pos.mpr hT
  have hiff := fun z => eos_iff (a := 42748 / 100000 * R ^ 2 * Tc ^ (5 / 2 : ℝ) / Pc / Real.sqrt T)
    (b := 8664 / 100000 * R * Tc / Pc) hR hT hP (by positivity) (by positivity) z
  unfold RedlichKwongEOS
  simp only [hiff, e1, e2, ← hB]
  refine root_beyond (by rw [hB]; positivity) (by positivity) hs (le_trans (le_of_eq ?_) hq)
  have e3 : (T / Tc) ^ ((-1 / 2 : ℚ) : ℝ) = 1 / Real.sqrt (T / Tc) := by
    rw [Real.sqrt_eq_rpow]
    push_cast
    rw [show (-1 / 2 : ℝ) = -(1 / 2) by norm_num, Real.rpow_neg ht.le]
    exact inv_eq_one_div _
  have := Real.sqrt_pos.mpr ht
  rw [e3]
  field_simp

/-- With `A = 0.42748 Pr / Tr^2.5 < 1/4` every step divides the distance to the largest solution by `1 / (4 A)`. -/
theorem C85_redlich_kwong_vapour_rate {A : ℝ} (hAd : A = 42748 / 100000 * (P / Pc) / ((T / Tc) ^ 2 * Real.sqrt (T / Tc)))
    (hA : A < 1 / 4) :
    ∃ Z, RedlichKwongEOS R T P Tc Pc (Z * R * T / P) ∧ (∀ w, RedlichKwongEOS R T P Tc Pc (w * R * T / P) → w ≤ Z) ∧
      ∀ n : ℕ, ∃ z, rkCall u v T P Tc Pc c!"vapor" n = .ok (.num z) ∧
        |z - Z| ≤ (4 * A) ^ (n + 1) * (1 / 2 + 8664 / 100000 * (P / Pc) / (T / Tc)) := by
  have ht : 0 < T / Tc := by positivity
  obtain ⟨e1, e2⟩ := rk_reduced hR hT hP hTc hPc
  have hs2 := Real.sqrt_pos.mpr hT
  have hiff := fun z => eos_iff (a := 42748 / 100000 * R ^ 2 * Tc ^ (5 / 2 : ℝ) / Pc / Real.sqrt T)
    (b := 8664 / 100000 * R * Tc / Pc) hR hT hP (by positivity) (by positivity) z
  have e3 : (T / Tc) ^ ((-1 / 2 : ℚ) : ℝ) = 1 / Real.sqrt (T / Tc) := by
    rw [Real.sqrt_eq_rpow]
    push_cast
    rw [show (-1 / 2 : ℝ) = -(1 / 2) by norm_num, Real.rpow_neg ht.le]
    exact inv_eq_one_div _
  have e4 : 42748 / 100000 * (T / Tc) ^ ((-1 / 2 : ℚ) : ℝ) / (8664 / 100000 * (T / Tc)) *
      (8664 / 100000 * (P / Pc / (T / Tc))) = A := by
    have := Real.sqrt_pos.mpr ht
    rw [e3, hAd]
    field_simp
  unfold RedlichKwongEOS
  simp only [hiff, e1, e2]
  obtain ⟨Z, a1, a2, a3⟩ := vapour_rate (B := 8664 / 100000 * (P / Pc / (T / Tc)))
    (q := 42748 / 100000 * (T / Tc) ^ ((-1 / 2 : ℚ) : ℝ) / (8664 / 100000 * (T / Tc))) (by positivity) (by positivity)
    (by rw [e4]; exact hA) (liquidStep _ _ _)
  refine ⟨Z, a1, a2, fun n => ?_⟩
  obtain ⟨z, b1, b2⟩ := a3 n
  rw [e4, ← mul_div_assoc] at b2
  exact ⟨z, by rw [rk_eval hv hT hP hTc hPc]; exact b1, b2⟩

/-- If the Redlich-Kwong equation has a positive solution of at most `2/3`, more iterations of the liquid calculation
approach its smallest positive solution from below. -/
theorem C85_redlich_kwong_liquid {Z₀ : ℝ} (hr : 0 < Z₀) (hr1 : Z₀ ≤ 2 / 3)
    (h0 : RedlichKwongEOS R T P Tc Pc (Z₀ * R * T / P)) :
    ∃ Z, 0 < Z ∧ RedlichKwongEOS R T P Tc Pc (Z * R * T / P) ∧
      (∀ w, 0 < w → RedlichKwongEOS R T P Tc Pc (w * R * T / P) → Z ≤ w) ∧
      Approaches (rkCall u v T P Tc Pc c!"liquid") Z := by
  have ht : 0 < T / Tc := by positivity
  obtain ⟨e1, e2⟩ := rk_reduced hR hT hP hTc hPc
  have hs2 := Real.sqrt_pos.mpr hT
  have hiff := fun z => eos_iff (a := 42748 / 100000 * R ^ 2 * Tc ^ (5 / 2 : ℝ) / Pc / Real.sqrt T)
    (b := 8664 / 100000 * R * Tc / Pc) hR hT hP (by positivity) (by positivity) z
  unfold RedlichKwongEOS at h0 ⊢
  simp only [hiff, e1, e2] at h0 ⊢
  obtain ⟨Z, a0, a1, a2, ⟨zs, a3, a4⟩, -⟩ := liquid_approaches (by positivity) (by positivity) hr hr1 h0 (vapourStep _ _ (pnum 1))
  refine ⟨Z, a0, a1, a2, zs, fun n => ?_, a4⟩
  rw [rk_eval hv hT hP hTc hPc]
  exact a3 n

/-- As above for Soave's equation, vapour. -/
theorem C85_soave_vapour {w B : ℝ}
    (hα : 1 + (480 / 1000 + 1574 / 1000 * w - 176 / 1000 * w ^ 2) * (1 - Real.sqrt (T / Tc)) ≠ 0)
    (hB : B = 8664 / 100000 * (P / Pc) / (T / Tc)) (hs : (1 + Real.sqrt 2) * B ≤ 1) {Z₀ : ℝ}
    (hr : (1 + Real.sqrt 2) * B ≤ Z₀) (h0 : SoaveEOS R T P Tc Pc w (Z₀ * R * T / P)) :
    ∃ Z, SoaveEOS R T P Tc Pc w (Z * R * T / P) ∧ (∀ y, SoaveEOS R T P Tc Pc w (y * R * T / P) → y ≤ Z) ∧
      Approaches (srkCall u v T P Tc Pc c!"vapor" w) Z := by
  have ht : 0 < T / Tc := by positivity
  rw [mul_div_assoc] at hB
  unfold SoaveEOS at h0 ⊢
  have hev := fun n => srk_eval (u := u) hv hT hP hTc hPc c!"vapor" w n
  rw [← hB] at hev
  generalize hα' : 1 + (480 / 1000 + 1574 / 1000 * w - 176 / 1000 * w ^ 2) * (1 - Real.sqrt (T / Tc)) = α at *
  have hα2 : 0 < α ^ 2 := by positivity
  have hiff := fun z => eos_iff (a := 42748 / 100000 * R ^ 2 * Tc ^ 2 / Pc * α ^ 2)
    (b := 8664 / 100000 * R * Tc / Pc) hR hT hP (by positivity) (by positivity) z
  have e1 : 8664 / 100000 * R * Tc / Pc * P / (R * T) = B := by rw [hB]; field_simp
  have e2 : 42748 / 100000 * R ^ 2 * Tc ^ 2 / Pc * α ^ 2 / (8664 / 100000 * R * Tc / Pc * (R * T)) =
      42748 / 100000 * α ^ 2 / (8664 / 100000 * (T / Tc)) := by field_simp
  simp only [hiff, e1, e2] at h0 ⊢
  obtain ⟨Z, a1, a2, zs, a3, a4⟩ := vapour_approaches (by rw [hB]; positivity) (by positivity) hs hr h0 (liquidStep _ _ _)
  exact ⟨Z, a1, a2, zs, fun n => by rw [hev]; exact a3 n, a4⟩

theorem C85_soave_vapour_rate {w A : ℝ}
    (hα : 1 + (480 / 1000 + 1574 / 1000 * w - 176 / 1000 * w ^ 2) * (1 - Real.sqrt (T / Tc)) ≠ 0)
    (hAd : A = 42748 / 100000 * (1 + (480 / 1000 + 1574 / 1000 * w - 176 / 1000 * w ^ 2) *
      (1 - Real.sqrt (T / Tc))) ^ 2 * (P / Pc) / (T / Tc) ^ 2) (hA : A < 1 / 4) :
    ∃ Z, SoaveEOS R T P Tc Pc w (Z * R * T / P) ∧ (∀ y, SoaveEOS R T P Tc Pc w (y * R * T / P) → y ≤ Z) ∧
      ∀ n : ℕ, ∃ z, srkCall u v T P Tc Pc c!"vapor" w n = .ok (.num z) ∧
        |z - Z| ≤ (4 * A) ^ (n + 1) * (1 / 2 + 8664 / 100000 * (P / Pc) / (T / Tc)) := by
  have ht : 0 < T / Tc := by positivity
  unfold SoaveEOS
  have hev := fun n => srk_eval (u := u) hv hT hP hTc hPc c!"vapor" w n
  generalize hα' : 1 + (480 / 1000 + 1574 / 1000 * w - 176 / 1000 * w ^ 2) * (1 - Real.sqrt (T / Tc)) = α at *
  have hα2 : 0 < α ^ 2 := by positivity
  have hiff := fun z => eos_iff (a := 42748 / 100000 * R ^ 2 * Tc ^ 2 / Pc * α ^ 2)
    (b := 8664 / 100000 * R * Tc / Pc) hR hT hP (by positivity) (by positivity) z
  have e1 : 8664 / 100000 * R * Tc / Pc * P / (R * T) = 8664 / 100000 * (P / Pc / (T / Tc)) := by field_simp
  have e2 : 42748 / 100000 * R ^ 2 * Tc ^ 2 / Pc * α ^ 2 / (8664 / 100000 * R * Tc / Pc * (R * T)) =
      42748 / 100000 * α ^ 2 / (8664 / 100000 * (T / Tc)) := by field_simp
  have e4 : 42748 / 100000 * α ^ 2 / (8664 / 100000 * (T / Tc)) * (8664 / 100000 * (P / Pc / (T / Tc))) = A := by
    rw [hAd]; field_simp
  simp only [hiff, e1, e2]
  obtain ⟨Z, a1, a2, a3⟩ := vapour_rate (B := 8664 / 100000 * (P / Pc / (T / Tc)))
    (q := 42748 / 100000 * α ^ 2 / (8664 / 100000 * (T / Tc))) (by positivity) (by positivity)
    (by rw [e4]; exact hA) (liquidStep _ _ _)
  refine ⟨Z, a1, a2, fun n => ?_⟩
  obtain ⟨z, b1, b2⟩ := a3 n
  rw [e4, ← mul_div_assoc] at b2
  exact ⟨z, by rw [hev]; exact b1, b2⟩

theorem C85_soave_liquid {w : ℝ}
    (hα : 1 + (480 / 1000 + 1574 / 1000 * w - 176 / 1000 * w ^ 2) * (1 - Real.sqrt (T / Tc)) ≠ 0)
    {Z₀ : ℝ} (hr : 0 < Z₀) (hr1 : Z₀ ≤ 2 / 3) (h0 : SoaveEOS R T P Tc Pc w (Z₀ * R * T / P)) :
    ∃ Z, 0 < Z ∧ SoaveEOS R T P Tc Pc w (Z * R * T / P) ∧
      (∀ y, 0 < y → SoaveEOS R T P Tc Pc w (y * R * T / P) → Z ≤ y) ∧
      Approaches (srkCall u v T P Tc Pc c!"liquid" w) Z := by
  have ht : 0 < T / Tc := by positivity
  unfold SoaveEOS at h0 ⊢
  have hev := fun n => srk_eval (u := u) hv hT hP hTc hPc c!"liquid" w n
  generalize hα' : 1 + (480 / 1000 + 1574 / 1000 * w - 176 / 1000 * w ^ 2) * (1 - Real.sqrt (T / Tc)) = α at *
  have hα2 : 0 < α ^ 2 := by positivity
  have hiff := fun z => eos_iff (a := 42748 / 100000 * R ^ 2 * Tc ^ 2 / Pc * α ^ 2)
    (b := 8664 / 100000 * R * Tc / Pc) hR hT hP (by positivity) (by positivity) z
  have e1 : 8664 / 100000 * R * Tc / Pc * P / (R * T) = 8664 / 100000 * (P / Pc / (T / Tc)) := by field_simp
  have e2 : 42748 / 100000 * R ^ 2 * Tc ^ 2 / Pc * α ^ 2 / (8664 / 100000 * R * Tc / Pc * (R * T)) =
      42748 / 100000 * α ^ 2 / (8664 / 100000 * (T / Tc)) := by field_simp
  simp only [hiff, e1, e2] at h0 ⊢
  obtain ⟨Z, a0, a1, a2, ⟨zs, a3, a4⟩, -⟩ := liquid_approaches (by positivity) (by positivity) hr hr1 h0 (vapourStep _ _ (pnum 1))
  exact ⟨Z, a0, a1, a2, zs, fun n => by rw [hev]; exact a3 n, a4⟩

/-- The van der Waals function approaches the largest solution of the Redlich-Kwong shaped equation it iterates (which is
not van der Waals' equation, C43). -/
theorem C85_van_der_waals_vapour {B : ℝ} (hB : B = 1 / 8 * (P / Pc) / (T / Tc)) (hs : (1 + Real.sqrt 2) * B ≤ 1) {Z₀ : ℝ}
    (hr : (1 + Real.sqrt 2) * B ≤ Z₀)
    (h0 : CubicEOS 1 0 R T P (27 / 64 * R ^ 2 * Tc ^ 2 / Pc) (1 / 8 * R * Tc / Pc) (Z₀ * R * T / P)) :
    ∃ Z, CubicEOS 1 0 R T P (27 / 64 * R ^ 2 * Tc ^ 2 / Pc) (1 / 8 * R * Tc / Pc) (Z * R * T / P) ∧
      (∀ w, CubicEOS 1 0 R T P (27 / 64 * R ^ 2 * Tc ^ 2 / Pc) (1 / 8 * R * Tc / Pc) (w * R * T / P) → w ≤ Z) ∧
      Approaches (vdwCall u v T P Tc Pc c!"vapor") Z := by
  have ht : 0 < T / Tc := by positivity
  rw [mul_div_assoc] at hB
  have hiff := fun z => eos_iff (a := 27 / 64 * R ^ 2 * Tc ^ 2 / Pc)
    (b := 1 / 8 * R * Tc / Pc) hR hT hP (by positivity) (by positivity) z
  have e1 : 1 / 8 * R * Tc / Pc * P / (R * T) = B := by rw [hB]; field_simp
  have e2 : 27 / 64 * R ^ 2 * Tc ^ 2 / Pc / (1 / 8 * R * Tc / Pc * (R * T)) = 27 / 64 * 1 / (1 / 8 * (T / Tc)) := by
    field_simp
  simp only [hiff, e1, e2] at h0 ⊢
  obtain ⟨Z, a1, a2, zs, a3, a4⟩ := vapour_approaches (by rw [hB]; positivity) (by positivity) hs hr h0 (liquidStep _ _ _)
  refine ⟨Z, a1, a2, zs, fun n => ?_, a4⟩
  rw [vdw_eval hv hT hP hTc hPc, ← hB]
  exact a3 n

theorem C85_van_der_waals_liquid {Z₀ : ℝ} (hr : 0 < Z₀) (hr1 : Z₀ ≤ 2 / 3)
    (h0 : CubicEOS 1 0 R T P (27 / 64 * R ^ 2 * Tc ^ 2 / Pc) (1 / 8 * R * Tc / Pc) (Z₀ * R * T / P)) :
    ∃ Z, 0 < Z ∧ CubicEOS 1 0 R T P (27 / 64 * R ^ 2 * Tc ^ 2 / Pc) (1 / 8 * R * Tc / Pc) (Z * R * T / P) ∧
      (∀ w, 0 < w → CubicEOS 1 0 R T P (27 / 64 * R ^ 2 * Tc ^ 2 / Pc) (1 / 8 * R * Tc / Pc) (w * R * T / P) → Z ≤ w) ∧
      Approaches (vdwCall u v T P Tc Pc c!"liquid") Z := by
  have ht : 0 < T / Tc := by positivity
  have hiff := fun z => eos_iff (a := 27 / 64 * R ^ 2 * Tc ^ 2 / Pc)
    (b := 1 / 8 * R * Tc / Pc) hR hT hP (by positivity) (by positivity) z
  have e1 : 1 / 8 * R * Tc / Pc * P / (R * T) = 1 / 8 * (P / Pc / (T / Tc)) := by field_simp
  have e2 : 27 / 64 * R ^ 2 * Tc ^ 2 / Pc / (1 / 8 * R * Tc / Pc * (R * T)) = 27 / 64 * 1 / (1 / 8 * (T / Tc)) := by
    field_simp
  simp only [hiff, e1, e2] at h0 ⊢
  obtain ⟨Z, a0, a1, a2, ⟨zs, a3, a4⟩, -⟩ :=
    liquid_approaches (by positivity) (by positivity) hr hr1 h0 (vapourStep _ _ (pnum 1))
  exact ⟨Z, a0, a1, a2, zs, fun n => by rw [vdw_eval hv hT hP hTc hPc]; exact a3 n, a4⟩

/-- The first step of `peng_robinson` in the liquid state agrees with the other functions' first step, so the liquid
calculation approaches the smallest solution of the Redlich-Kwong shaped equation (not of Peng-Robinson's, C43). -/
theorem C85_peng_robinson_liquid {w α : ℝ}
    (hα' : α = 1 + (37464 / 100000 + 154226 / 100000 * w - 26992 / 100000 * w ^ 2) * (1 - Real.sqrt (T / Tc)))
    (hα : α ≠ 0) {Z₀ : ℝ} (hr : 0 < Z₀) (hr1 : Z₀ ≤ 2 / 3)
    (h0 : CubicEOS 1 0 R T P (45724 / 100000 * R ^ 2 * Tc ^ 2 / Pc * α ^ 2) (7780 / 100000 * R * Tc / Pc) (Z₀ * R * T / P)) :
    ∃ Z, 0 < Z ∧
      CubicEOS 1 0 R T P (45724 / 100000 * R ^ 2 * Tc ^ 2 / Pc * α ^ 2) (7780 / 100000 * R * Tc / Pc) (Z * R * T / P) ∧
      (∀ y, 0 < y → CubicEOS 1 0 R T P (45724 / 100000 * R ^ 2 * Tc ^ 2 / Pc * α ^ 2) (7780 / 100000 * R * Tc / Pc)
        (y * R * T / P) → Z ≤ y) ∧
      Approaches (prCall u v T P Tc Pc c!"liquid" w) Z := by
  have ht : 0 < T / Tc := by positivity
  have hev := fun n => pr_eval (u := u) hv hT hP hTc hPc c!"liquid" w n
  rw [← hα'] at hev
  have hα2 : 0 < α ^ 2 := by positivity
  have hiff := fun z => eos_iff (a := 45724 / 100000 * R ^ 2 * Tc ^ 2 / Pc * α ^ 2)
    (b := 7780 / 100000 * R * Tc / Pc) hR hT hP (by positivity) (by positivity) z
  have e1 : 7780 / 100000 * R * Tc / Pc * P / (R * T) = 7780 / 100000 * (P / Pc / (T / Tc)) := by field_simp
  have e2 : 45724 / 100000 * R ^ 2 * Tc ^ 2 / Pc * α ^ 2 / (7780 / 100000 * R * Tc / Pc * (R * T)) =
      45724 / 100000 * α ^ 2 / (7780 / 100000 * (T / Tc)) := by field_simp
  simp only [hiff, e1, e2] at h0 ⊢
  have hq : 0 < 45724 / 100000 * α ^ 2 / (7780 / 100000 * (T / Tc)) := by positivity
  have hB : 0 < 7780 / 100000 * (P / Pc / (T / Tc)) := by positivity
  generalize 45724 / 100000 * α ^ 2 / (7780 / 100000 * (T / Tc)) = q at *
  generalize 7780 / 100000 * (P / Pc / (T / Tc)) = B at *
  have hfirst : prStep (pnum (1 + Real.sqrt 2)) (pnum (1 - Real.sqrt 2)) (pnum B) (pnum q) (pnum B) =
      liquidStep (pnum B) (pnum q) (pnum B) := by
    have h : q * B ≠ 0 := by positivity
    have h2 : Real.sqrt 2 * Real.sqrt 2 = 2 := Real.mul_self_sqrt (by norm_num)
    simp only [prStep, liquidStep, pnum, ok_mul, ok_div, ok_add, ok_sub, Val.add, Val.sub, Val.mul, Val.div, pyDiv_ne h]
    have : (B + (1 - Real.sqrt 2) * B) * (B + (1 + Real.sqrt 2) * B) = B * (B + B) := by
      linear_combination (-B ^ 2) * h2
    rw [this]
  obtain ⟨Z, a0, a1, a2, ⟨zs, a3, a4⟩, -⟩ := liquid_approaches hB hq hr hr1 h0
    (prStep (pnum (1 + Real.sqrt 2)) (pnum (1 - Real.sqrt 2)) (pnum B) (pnum q) (pnum 1))
  exact ⟨Z, a0, a1, a2, zs, fun n => by rw [hev, hfirst]; exact a3 n, a4⟩

end

/-! ## The documented example -/

/-- The reduced equation at the critical point. -/
theorem rk_critical (R : ℝ) (hR : 0 < R) (z : ℝ) : RedlichKwongEOS R 350 350 350 350 (z * R * 350 / 350) ↔
    eosCubic (8664 / 100000) (42748 / 8664) z = 0 := by
  obtain ⟨e1, e2⟩ := rk_reduced (T := 350) (P := 350) (Tc := 350) (Pc := 350) hR (by norm_num) (by norm_num) (by norm_num)
    (by norm_num)
  unfold RedlichKwongEOS
  rw [eos_iff hR (by norm_num) (by norm_num) (by positivity) (by positivity), e1, e2]
  norm_num

theorem vapourMap_critical {l u x : ℝ} (hl : 21 / 100 ≤ l) (hx : l ≤ x ∧ x ≤ u) :
    vapourMap (8664 / 100000) (42748 / 8664) l ≤ vapourMap (8664 / 100000) (42748 / 8664) x ∧
    vapourMap (8664 / 100000) (42748 / 8664) x ≤ vapourMap (8664 / 100000) (42748 / 8664) u := by
  have hs : Real.sqrt 2 ≤ 142 / 100 := Real.sqrt_le_iff.mpr ⟨by norm_num, by norm_num⟩
  have hm := vapourMap_mono (B := 8664 / 100000) (q := 42748 / 8664) (a := l) (b := u) (by norm_num) (by norm_num)
    (by linarith)
  exact ⟨hm ⟨le_rfl, hx.1.trans hx.2⟩ ⟨hx.1, hx.2⟩ hx.1, hm ⟨hx.1, hx.2⟩ ⟨hx.1.trans hx.2, le_rfl⟩ hx.2⟩

/-- The documented call `rendlich_kwong(350 K, 350 kPa, 350 K, 350 kPa, "vapor", 6)` does give 0.47750, but more
iterations approach a solution below 0.34, and the equation has no solution above 0.34. -/
theorem C85_documented_example (R : ℝ) (hR : 0 < R) :
    (∃ z, rkCall c!"K" c!"kPa" 350 350 350 350 c!"vapor" 6 = .ok (.num z) ∧ |z - 4775 / 10000| ≤ 1 / 100000) ∧
    (∃ Z, RedlichKwongEOS R 350 350 350 350 (Z * R * 350 / 350) ∧ Approaches (rkCall c!"K" c!"kPa" 350 350 350 350 c!"vapor") Z) ∧
    ∀ w, RedlichKwongEOS R 350 350 350 350 (w * R * 350 / 350) → w < 34 / 100 := by
  have hs : Real.sqrt 2 ≤ 142 / 100 := Real.sqrt_le_iff.mpr ⟨by norm_num, by norm_num⟩
  have hs' : 141 / 100 ≤ Real.sqrt 2 := Real.le_sqrt_of_sq_le (by norm_num)
  have hlt : ∀ w, RedlichKwongEOS R 350 350 350 350 (w * R * 350 / 350) → w < 34 / 100 := by
    intro w hw
    rw [rk_critical R hR] at hw
    by_contra hc
    rw [not_lt] at hc
    unfold eosCubic at hw
    nlinarith [mul_nonneg (sub_nonneg.mpr hc) (sq_nonneg (w - 33 / 100)), mul_nonneg (sub_nonneg.mpr hc) (sub_nonneg.mpr hc)]
  obtain ⟨Z₀, hr, h0⟩ := C85_redlich_kwong_vapour_exists (R := R) (T := 350) (P := 350) (Tc := 350) (Pc := 350)
    (B := 8664 / 100000) hR (by norm_num) (by norm_num) (by norm_num) (by norm_num) (by norm_num) (by nlinarith)
    (by norm_num; nlinarith [Real.mul_self_sqrt (show (0 : ℝ) ≤ 2 by norm_num)])
  obtain ⟨Z, h1, h2, h3⟩ := C85_redlich_kwong_vapour (u := c!"K") (v := c!"kPa") (by decide) hR (T := 350) (P := 350)
    (Tc := 350) (Pc := 350) (B := 8664 / 100000) (by norm_num) (by norm_num) (by norm_num) (by norm_num) (by norm_num)
    (by nlinarith) hr h0
  refine ⟨?_, ⟨Z, h1, h3⟩, hlt⟩
  have hB : (0 : ℝ) < 8664 / 100000 := by norm_num
  have hq : (0 : ℝ) < 42748 / 8664 := by norm_num
  have hev := rk_eval (u := c!"K") (v := c!"kPa") (by decide) (T := 350) (P := 350) (Tc := 350) (Pc := 350)
    (by norm_num) (by norm_num) (by norm_num) (by norm_num) c!"vapor" 6
  have e1 : (8664 / 100000 * ((350 / 350) / (350 / 350)) : ℝ) = 8664 / 100000 := by norm_num
  have e2 : (42748 / 100000 * (350 / 350 : ℝ) ^ ((-1 / 2 : ℚ) : ℝ) / (8664 / 100000 * (350 / 350)) : ℝ) = 42748 / 8664 := by
    norm_num
  rw [e1, e2] at hev
  rw [hev]
  have step : ∀ {x : ℝ}, 0 < x → vapourStep (pnum (8664 / 100000)) (pnum (42748 / 8664)) (.ok (.num x)) =
      .ok (.num (vapourMap (8664 / 100000) (42748 / 8664) x)) := fun hx => vapourStep_num hB hx
  obtain ⟨F, hF⟩ : ∃ F : ℝ → ℝ, F = vapourMap (8664 / 100000) (42748 / 8664) := ⟨_, rfl⟩
  have hb : ∀ (l u l' u' x : ℝ), 21 / 100 ≤ l → l' ≤ F l → F u ≤ u' → l ≤ x ∧ x ≤ u → l' ≤ F x ∧ F x ≤ u' := by
    intro l u l' u' x hl h1 h2 hx
    have := vapourMap_critical hl hx
    rw [hF] at h1 h2 ⊢
    exact ⟨h1.trans this.1, this.2.trans h2⟩
  have b1 := hb 1 1 (72732768 / 10 ^ 8) (72732769 / 10 ^ 8) 1 (by norm_num) (by rw [hF]; norm_num [vapourMap])
    (by rw [hF]; norm_num [vapourMap]) ⟨le_rfl, le_rfl⟩
  have b2 := hb _ _ (62401947 / 10 ^ 8) (62401949 / 10 ^ 8) _ (by norm_num) (by rw [hF]; norm_num [vapourMap])
    (by rw [hF]; norm_num [vapourMap]) b1
  have b3 := hb _ _ (56863114 / 10 ^ 8) (56863116 / 10 ^ 8) _ (by norm_num) (by rw [hF]; norm_num [vapourMap])
    (by rw [hF]; norm_num [vapourMap]) b2
  have b4 := hb _ _ (53366795 / 10 ^ 8) (53366797 / 10 ^ 8) _ (by norm_num) (by rw [hF]; norm_num [vapourMap])
    (by rw [hF]; norm_num [vapourMap]) b3
  have b5 := hb _ _ (50937927 / 10 ^ 8) (50937930 / 10 ^ 8) _ (by norm_num) (by rw [hF]; norm_num [vapourMap])
    (by rw [hF]; norm_num [vapourMap]) b4
  have b6 := hb _ _ (49140723 / 10 ^ 8) (49140727 / 10 ^ 8) _ (by norm_num) (by rw [hF]; norm_num [vapourMap])
    (by rw [hF]; norm_num [vapourMap]) b5
  have b7 := hb _ _ (47750117 / 10 ^ 8) (47750121 / 10 ^ 8) _ (by norm_num) (by rw [hF]; norm_num [vapourMap])
    (by rw [hF]; norm_num [vapourMap]) b6
  rw [← hF] at step
  refine ⟨F (F (F (F (F (F (F 1)))))), ?_, ?_⟩
  · show loop (vapourStep (pnum (8664 / 100000)) (pnum (42748 / 8664))) 6 (vapourStep _ _ (.ok (.num 1))) = _
    rw [step one_pos]
    iterate 6 rw [loop]
    rw [step (by linarith [b1.1]), step (by linarith [b2.1]), step (by linarith [b3.1]), step (by linarith [b4.1]),
      step (by linarith [b5.1]), step (by linarith [b6.1])]
    rfl
  · rw [abs_le]
    constructor <;> linarith [b7.1, b7.2]

/-- At four times the critical temperature and the critical pressure six iterations are within `10⁻⁹`. -/
example (R : ℝ) (hR : 0 < R) : ∃ Z, RedlichKwongEOS R 1400 350 350 350 (Z * R * 1400 / 350) ∧
    ∃ z, rkCall c!"K" c!"kPa" 1400 350 350 350 c!"vapor" 6 = .ok (.num z) ∧ |z - Z| ≤ 1 / 10 ^ 9 := by
  have hs : Real.sqrt (1400 / 350) = 2 := by
    rw [show (1400 / 350 : ℝ) = 2 ^ 2 by norm_num]; exact Real.sqrt_sq (by norm_num)
  obtain ⟨Z, h1, -, h2⟩ := C85_redlich_kwong_vapour_rate (u := c!"K") (v := c!"kPa") (by decide) hR (T := 1400) (P := 350)
    (Tc := 350) (Pc := 350) (by norm_num) (by norm_num) (by norm_num) (by norm_num) rfl (by rw [hs]; norm_num)
  obtain ⟨z, h3, h4⟩ := h2 6
  refine ⟨Z, h1, z, h3, h4.trans ?_⟩
  rw [hs]
  norm_num

/-- The liquid calculation at the documented state approaches a solution as well. -/
example : ∃ Z, 0 < Z ∧ Approaches (rkCall c!"K" c!"kPa" 350 350 350 350 c!"liquid") Z := by
  have hs' : 0 < Real.sqrt 2 := by positivity
  obtain ⟨-, ⟨Z, h1, -⟩, h2⟩ := C85_documented_example 1 one_pos
  have hpos : 0 < Z := by
    rw [rk_critical 1 one_pos] at h1
    by_contra hc
    rw [not_lt] at hc
    unfold eosCubic at h1
    nlinarith [sq_nonneg Z, mul_nonneg (neg_nonneg.mpr hc) (sq_nonneg Z)]
  obtain ⟨Z', h3, -, -, h4⟩ := C85_redlich_kwong_liquid (u := c!"K") (v := c!"kPa") (by decide) (R := 1) (T := 350) (P := 350)
    (Tc := 350) (Pc := 350) one_pos (by norm_num) (by norm_num) (by norm_num) (by norm_num) hpos (by linarith [h2 Z h1]) h1
  exact ⟨Z', h3, h4⟩

example (R : ℝ) (hR : 0 < R) : ∃ Z, SoaveEOS R 350 175 350 350 (1 / 10) (Z * R * 350 / 175) ∧
    ∀ n : ℕ, ∃ z, srkCall c!"K" c!"kPa" 350 175 350 350 c!"vapor" (1 / 10) n = .ok (.num z) ∧
      |z - Z| ≤ (9 / 10) ^ (n + 1) := by
  obtain ⟨Z, h1, -, h2⟩ := C85_soave_vapour_rate (u := c!"K") (v := c!"kPa") (by decide) hR (T := 350) (P := 175)
    (Tc := 350) (Pc := 350) (w := 1 / 10) (by norm_num) (by norm_num) (by norm_num) (by norm_num) (by norm_num) rfl
    (by norm_num)
  refine ⟨Z, h1, fun n => ?_⟩
  obtain ⟨z, h3, h4⟩ := h2 n
  refine ⟨z, h3, h4.trans ?_⟩
  norm_num
  calc (10687 / 12500 : ℝ) ^ (n + 1) * (13583 / 25000) ≤ (9 / 10) ^ (n + 1) * 1 :=
        mul_le_mul (pow_le_pow_left₀ (by norm_num) (by norm_num) _) (by norm_num) (by norm_num) (by positivity)
    _ = _ := mul_one _

/-! ## Where there is no liquid -/

theorem liquidMap_grows {B q z : ℝ} (hB : 0 < B) (hB1 : B ≤ 1) (hq : 0 < q) (hA : q * B ≤ 1) (hz : 10 ≤ |z|) :
    2 * |z| ≤ |liquidMap B q z| := by
  have hqB : 0 < q * B := by positivity
  have h1 : 9 ≤ |z + B| := by
    have := abs_sub_abs_le_abs_sub z (-B)
    rw [abs_neg, abs_of_pos hB, sub_neg_eq_add] at this
    linarith
  have h2 : 8 ≤ |1 + B - z| := by
    have := abs_sub_abs_le_abs_sub z (1 + B)
    rw [abs_of_pos (show 0 < 1 + B by linarith), abs_sub_comm] at this
    linarith
  have h3 : 72 * |z| ≤ |z * (z + B) * ((1 + B - z) / (q * B))| := by
    rw [abs_mul, abs_mul, abs_div, abs_of_pos hqB]
    have h4 : 8 ≤ |1 + B - z| / (q * B) := by
      rw [le_div_iff₀ hqB]
      nlinarith
    have h5 : |z| * 9 ≤ |z| * |z + B| := mul_le_mul_of_nonneg_left h1 (abs_nonneg z)
    have h6 := mul_le_mul h5 h4 (by norm_num) (by positivity)
    linarith
  have h7 := abs_sub_abs_le_abs_sub (z * (z + B) * ((1 + B - z) / (q * B))) (-B)
  rw [abs_neg, abs_of_pos hB, sub_neg_eq_add] at h7
  unfold liquidMap
  rw [add_comm]
  linarith

/-- At four times the critical temperature and pressure, where only the vapour exists, the liquid calculation returns
numbers of unbounded size. -/
theorem C85_no_liquid : ∃ zs : ℕ → ℝ, (∀ n : ℕ, rkCall c!"K" c!"kPa" 1400 1400 350 350 c!"liquid" n = .ok (.num (zs n))) ∧
    Tendsto (fun n => |zs n|) atTop atTop := by
  have e2 : (42748 / 100000 * (1400 / 350 : ℝ) ^ ((-1 / 2 : ℚ) : ℝ) / (8664 / 100000 * (1400 / 350)) : ℝ) =
      42748 / 69312 := by
    have : (1400 / 350 : ℝ) ^ ((-1 / 2 : ℚ) : ℝ) = 1 / 2 := by
      rw [show (1400 / 350 : ℝ) = 2 ^ (2 : ℝ) by norm_num, ← Real.rpow_mul (by norm_num)]
      push_cast
      rw [show (2 * (-1 / 2) : ℝ) = -1 by norm_num, Real.rpow_neg_one]
      norm_num
    rw [this]
    norm_num
  refine ⟨fun n => (liquidMap (8664 / 100000) (42748 / 69312))^[n + 1] (8664 / 100000), fun n => ?_, ?_⟩
  · rw [rk_eval (by decide) (by norm_num) (by norm_num) (by norm_num) (by norm_num), e2,
      show (8664 / 100000 * ((1400 / 350) / (1400 / 350)) : ℝ) = 8664 / 100000 by norm_num]
    exact liquid_run (by norm_num) (by norm_num) _ n
  · have h : ∀ n : ℕ, (2 : ℝ) ^ n * 10 ≤
        |(liquidMap (8664 / 100000) (42748 / 69312))^[n + 3] (8664 / 100000)| := by
      intro n
      induction n with
      | zero =>
        have e : (liquidMap (8664 / 100000) (42748 / 69312))^[0 + 3] (8664 / 100000) ≤ -10 := by
          simp only [Function.iterate_succ, Function.comp, Function.iterate_zero, id]
          norm_num [liquidMap]
        rw [abs_of_nonpos (by linarith), pow_zero]
        linarith
      | succ n ih =>
        have h1 : (10 : ℝ) ≤ |(liquidMap (8664 / 100000) (42748 / 69312))^[n + 3] (8664 / 100000)| := by
          have : (1 : ℝ) ≤ 2 ^ n := one_le_pow₀ (by norm_num)
          linarith
        have := liquidMap_grows (B := 8664 / 100000) (q := 42748 / 69312) (by norm_num) (by norm_num) (by norm_num)
          (by norm_num) h1
        rw [show n + 1 + 3 = (n + 3) + 1 by ring, Function.iterate_succ_apply', pow_succ]
        linarith
    have h2 : Tendsto (fun n : ℕ => (2 : ℝ) ^ n * 10) atTop atTop :=
      (tendsto_pow_atTop_atTop_of_one_lt (by norm_num)).atTop_mul_const (by norm_num)
    exact (tendsto_add_atTop_iff_nat 2).mp (tendsto_atTop_mono h h2)

end Verif
