import Verif.Thermo.Cubic
import Verif.Tactic.UnitsEval
import Verif.Lemmas.Construct
import Verif.Lemmas.Cast

/-!
# C43: the cubic equations of state

The equations are stated in their pressure-explicit form, with the gas constant and the molar volume `V = Z R T / P`;
the code works with reduced quantities and the compressibility factor.
-/

namespace Verif

/-- `P = R T / (V - b) - a / ((V + ε b) (V + σ b))`, away from the poles. -/
def CubicEOS (sigma epsilon R T P a b V : ℝ) : Prop :=
  V ≠ b ∧ (V + epsilon * b) * (V + sigma * b) ≠ 0 ∧
    P = R * T / (V - b) - a / ((V + epsilon * b) * (V + sigma * b))

/-- Redlich-Kwong: `P = R T / (V - b) - a / (√T V (V + b))`. -/
noncomputable def RedlichKwongEOS (R T P Tc Pc V : ℝ) : Prop :=
  CubicEOS 1 0 R T P (42748 / 100000 * R ^ 2 * Tc ^ (5 / 2 : ℝ) / Pc / Real.sqrt T) (8664 / 100000 * R * Tc / Pc) V

/-- van der Waals: `P = R T / (V - b) - a / V²`. -/
noncomputable def VanDerWaalsEOS (R T P Tc Pc V : ℝ) : Prop :=
  CubicEOS 0 0 R T P (27 / 64 * R ^ 2 * Tc ^ 2 / Pc) (1 / 8 * R * Tc / Pc) V

/-- Soave's modification of Redlich-Kwong. -/
noncomputable def SoaveEOS (R T P Tc Pc w V : ℝ) : Prop :=
  CubicEOS 1 0 R T P (42748 / 100000 * R ^ 2 * Tc ^ 2 / Pc *
    (1 + (480 / 1000 + 1574 / 1000 * w - 176 / 1000 * w ^ 2) * (1 - Real.sqrt (T / Tc))) ^ 2)
    (8664 / 100000 * R * Tc / Pc) V

/-- Peng-Robinson: `P = R T / (V - b) - a α / (V² + 2 b V - b²)`. -/
noncomputable def PengRobinsonEOS (R T P Tc Pc w V : ℝ) : Prop :=
  CubicEOS (1 + Real.sqrt 2) (1 - Real.sqrt 2) R T P (45724 / 100000 * R ^ 2 * Tc ^ 2 / Pc *
    (1 + (37464 / 100000 + 154226 / 100000 * w - 26992 / 100000 * w ^ 2) * (1 - Real.sqrt (T / Tc))) ^ 2)
    (7780 / 100000 * R * Tc / Pc) V

/-! ## The iterations -/

theorem loop_succ {K : Type} (step : PyM (Val K) → PyM (Val K)) (n : ℕ) (z : PyM (Val K)) :
    loop step (n + 1) z = step (loop step n z) := by
  induction n generalizing z with
  | zero => rfl
  | succ n ih => exact ih (step z)

/-- The relation a converged value satisfies, in polynomial form. -/
def FixedZ (beta q z : ℝ) : Prop :=
  z ≠ 0 ∧ z + beta ≠ 0 ∧ z ≠ beta ∧ z * (z + beta) * (1 + beta - z) = q * beta * (z - beta)

theorem vapour_fix {beta q z : ℝ} (h : vapourStep (pnum beta) (pnum q) (pnum z) = .ok (.num z)) :
    FixedZ beta q z := by
  by_cases hz : z * (z + beta) = 0
  · simp [vapourStep, pnum, ok_mul, ok_div, ok_add, ok_sub, Val.add, Val.sub, Val.mul, Val.div, pyDiv, hz] at h
    cases h
  · simp only [vapourStep, pnum, ok_mul, ok_div, ok_add, ok_sub, Val.add, Val.sub, Val.mul, Val.div, pyDiv_ne hz,
      Except.ok.injEq, Val.num.injEq] at h
    have h1 := left_ne_zero_of_mul hz
    have h2 := right_ne_zero_of_mul hz
    refine ⟨h1, h2, ?_, ?_⟩
    · rintro rfl
      simp at h
    · field_simp at h
      linarith

theorem liquid_fix {beta q z : ℝ} (h0 : beta ≠ 0) (h : liquidStep (pnum beta) (pnum q) (pnum z) = .ok (.num z)) :
    FixedZ beta q z := by
  by_cases hz : q * beta = 0
  · simp [liquidStep, pnum, ok_mul, ok_div, ok_add, ok_sub, Val.add, Val.sub, Val.mul, Val.div, pyDiv, hz] at h
    cases h
  · simp only [liquidStep, pnum, ok_mul, ok_div, ok_add, ok_sub, Val.add, Val.sub, Val.mul, Val.div, pyDiv_ne hz,
      Except.ok.injEq, Val.num.injEq] at h
    have hq := left_ne_zero_of_mul hz
    have hk : z * (z + beta) * (1 + beta - z) = q * beta * (z - beta) := by
      field_simp at h
      field_simp
      linarith
    refine ⟨?_, ?_, ?_, hk⟩
    · rintro rfl
      apply h0
      have : q * beta * beta = 0 := by linarith
      rcases mul_eq_zero.mp this with h | h
      · exact absurd h hz
      · exact h
    · intro h1
      rw [h1] at hk
      have h2 : q * beta * (z - beta) = 0 := by rw [← hk]; ring
      rcases mul_eq_zero.mp h2 with h | h
      · exact hz h
      · apply h0; linarith
    · rintro rfl
      have : z * (z + z) * 1 = 0 := by linarith [hk]
      apply h0
      nlinarith [this, sq_nonneg z]

/-- A converged run of the common loop gives a fixed point, in either state. -/
theorem iterate_fix {state : Sym} {n : ℤ} (hn : 0 ≤ n) {beta q z : ℝ} (h0 : beta ≠ 0) {fv fl : PyM (Val ℝ)}
    (h1 : iterateState state n (pnum beta) (pnum q) fv fl = .ok (.num z))
    (h2 : iterateState state (n + 1) (pnum beta) (pnum q) fv fl = .ok (.num z)) : FixedZ beta q z := by
  have hs : (n + 1).toNat = n.toNat + 1 := by omega
  unfold iterateState at h1 h2
  simp only [pnum] at h1 h2
  split_ifs at h1 h2 with a b
  · rw [hs, loop_succ, h1] at h2
    exact vapour_fix h2
  · rw [hs, loop_succ, h1] at h2
    exact liquid_fix h0 h2

theorem iterate_other {state : Sym} {n : ℤ} {beta q : ℝ} {fv fl : PyM (Val ℝ)} (h1 : state ≠ c!"vapor")
    (h2 : state ≠ c!"liquid") : iterateState state n (pnum beta) (pnum q) fv fl = .error .unboundLocal := by
  simp [iterateState, pnum, h1, h2]

/-- The fixed point relation is the Redlich-Kwong shaped equation of state for `b = β R T / P`, `a = q b R T`. -/
theorem eos_of_fix {R T P a b z : ℝ} (hR : 0 < R) (hT : 0 < T) (hP : 0 < P) (hb : b ≠ 0) {beta q : ℝ}
    (e1 : beta = b * P / (R * T)) (e2 : q = a / (b * (R * T))) (h : FixedZ beta q z) :
    CubicEOS 1 0 R T P a b (z * R * T / P) := by
  obtain ⟨h1, h2, h3, h4⟩ := h
  have hb' : b = beta * (R * T) / P := by rw [e1]; field_simp
  have ha' : a = q * beta * (R * T) ^ 2 / P := by rw [e1, e2]; field_simp
  have k1 : z * R * T / P - b = (z - beta) * (R * T / P) := by rw [hb']; ring
  have k2 : (z * R * T / P + 0 * b) * (z * R * T / P + 1 * b) = z * (z + beta) * (R * T / P) ^ 2 := by rw [hb']; ring
  have h5 : z - beta ≠ 0 := sub_ne_zero.mpr h3
  have hRT : R * T / P ≠ 0 := by positivity
  refine ⟨?_, ?_, ?_⟩
  · intro h
    have : (z - beta) * (R * T / P) = 0 := by rw [← k1, h]; ring
    rcases mul_eq_zero.mp this with h | h
    · exact h5 h
    · exact hRT h
  · rw [k2]
    exact mul_ne_zero (mul_ne_zero h1 h2) (pow_ne_zero _ hRT)
  · rw [k1, k2, ha']
    field_simp
    linarith

/-! ## Evaluating the parameters -/

set_option linter.unusedSectionVars false

theorem temp_ratio (u : Sym) (T Tc : ℝ) (hc : Tc ≠ 0) :
    qU .temperature T u / qU .temperature Tc u = pnum (T / Tc) := by
  simp [qU, mkUnit, ok_div, Val.div, unitDiv, pyDiv_ne hc, pnum]

theorem pres_ratio {u : Sym} (hu : u ∈ pressureUnits) (P Pc : ℝ) (hc : Pc ≠ 0) :
    qU .pressure P u / qU .pressure Pc u = pnum (P / Pc) := by
  simp [qU, mkUnit, hu, ok_div, Val.div, unitDiv, pyDiv_ne hc, pnum]

/-- The arguments of the theorems: temperatures in the same unit `u`, pressures in the same unit `v`. -/
noncomputable def rkCall (u v : Sym) (T P Tc Pc : ℝ) (state : Sym) (n : ℤ) : PyM (Val ℝ) :=
  rendlichKwong (qU .temperature T u) (qU .pressure P v) (qU .temperature Tc u) (qU .pressure Pc v) state n

noncomputable def vdwCall (u v : Sym) (T P Tc Pc : ℝ) (state : Sym) (n : ℤ) : PyM (Val ℝ) :=
  vanDerWaals (qU .temperature T u) (qU .pressure P v) (qU .temperature Tc u) (qU .pressure Pc v) state n

noncomputable def srkCall (u v : Sym) (T P Tc Pc : ℝ) (state : Sym) (w : ℝ) (n : ℤ) : PyM (Val ℝ) :=
  soaveRendlichKwong (qU .temperature T u) (qU .pressure P v) (qU .temperature Tc u) (qU .pressure Pc v) state w n

noncomputable def prCall (u v : Sym) (T P Tc Pc : ℝ) (state : Sym) (w : ℝ) (n : ℤ) : PyM (Val ℝ) :=
  pengRobinson (qU .temperature T u) (qU .pressure P v) (qU .temperature Tc u) (qU .pressure Pc v) state w n

section
variable {u v : Sym} (hv : v ∈ pressureUnits) {T P Tc Pc : ℝ} (hT : 0 < T) (hP : 0 < P) (hTc : 0 < Tc) (hPc : 0 < Pc)
include hv hT hP hTc hPc

/-- The reduced parameters are computed without error. -/
theorem rk_eval (state : Sym) (n : ℤ) :
    let b := pnum (8664 / 100000 * ((P / Pc) / (T / Tc)))
    let q := pnum (42748 / 100000 * (T / Tc) ^ ((-1 / 2 : ℚ) : ℝ) / (8664 / 100000 * (T / Tc)))
    rkCall u v T P Tc Pc state n = iterateState state n b q (vapourStep b q (pnum 1)) (liquidStep b q b) := by
  have ht : 0 < T / Tc := by positivity
  have h2 : (8664 / 100000 * (T / Tc) : ℝ) ≠ 0 := by positivity
  unfold rkCall rendlichKwong
  simp only [show ((8664 / 100000 : ℚ) : ℝ) = 8664 / 100000 by norm_num,
    show ((42748 / 100000 : ℚ) : ℝ) = 42748 / 100000 by norm_num]
  rw [temp_ratio u T Tc hTc.ne', pres_ratio hv P Pc hPc.ne']
  simp only [pnum, ok_pow, ok_mul, ok_div, Val.pow, pow_real_pos ht, Val.mul, Val.div, pyDiv_ne ht.ne', pyDiv_ne h2]

theorem vdw_eval (state : Sym) (n : ℤ) :
    let b := pnum (1 / 8 * ((P / Pc) / (T / Tc)))
    let q := pnum (27 / 64 * 1 / (1 / 8 * (T / Tc)))
    vdwCall u v T P Tc Pc state n = iterateState state n b q (vapourStep b q (pnum 1)) (liquidStep b q b) := by
  have ht : 0 < T / Tc := by positivity
  have h2 : (1 / 8 * (T / Tc) : ℝ) ≠ 0 := by positivity
  unfold vdwCall vanDerWaals
  simp only [show ((1 / 8 : ℚ) : ℝ) = 1 / 8 by norm_num, show ((27 / 64 : ℚ) : ℝ) = 27 / 64 by norm_num]
  rw [temp_ratio u T Tc hTc.ne', pres_ratio hv P Pc hPc.ne']
  simp only [pnum, ok_mul, ok_div, Val.mul, Val.div, pyDiv_ne ht.ne', pyDiv_ne h2]

theorem srk_eval (state : Sym) (w : ℝ) (n : ℤ) :
    let b := pnum (8664 / 100000 * ((P / Pc) / (T / Tc)))
    let q := pnum (42748 / 100000 * (1 + (480 / 1000 + 1574 / 1000 * w - 176 / 1000 * w ^ 2) *
      (1 - Real.sqrt (T / Tc))) ^ 2 / (8664 / 100000 * (T / Tc)))
    srkCall u v T P Tc Pc state w n = iterateState state n b q (vapourStep b q (pnum 1)) (liquidStep b q b) := by
  have ht : 0 < T / Tc := by positivity
  have h2 : (8664 / 100000 * (T / Tc) : ℝ) ≠ 0 := by positivity
  unfold srkCall soaveRendlichKwong
  simp only [show ((8664 / 100000 : ℚ) : ℝ) = 8664 / 100000 by norm_num,
    show ((42748 / 100000 : ℚ) : ℝ) = 42748 / 100000 by norm_num, show ((480 / 1000 : ℚ) : ℝ) = 480 / 1000 by norm_num,
    show ((1574 / 1000 : ℚ) : ℝ) = 1574 / 1000 by norm_num, show ((176 / 1000 : ℚ) : ℝ) = 176 / 1000 by norm_num]
  rw [temp_ratio u T Tc hTc.ne', pres_ratio hv P Pc hPc.ne']
  simp only [pnum, ok_pow, ok_mul, ok_div, ok_add, ok_sub, Val.pow, pow_real_half ht.le, pow_real_two, Val.mul, Val.div,
    Val.add, Val.sub, pyDiv_ne ht.ne', pyDiv_ne h2]

theorem pr_eval (state : Sym) (w : ℝ) (n : ℤ) :
    let b := pnum (7780 / 100000 * ((P / Pc) / (T / Tc)))
    let q := pnum (45724 / 100000 * (1 + (37464 / 100000 + 154226 / 100000 * w - 26992 / 100000 * w ^ 2) *
      (1 - Real.sqrt (T / Tc))) ^ 2 / (7780 / 100000 * (T / Tc)))
    let s := pnum (1 + Real.sqrt 2)
    let e := pnum (1 - Real.sqrt 2)
    prCall u v T P Tc Pc state w n = iterateState state n b q (prStep s e b q (pnum 1)) (prStep s e b q b) := by
  have ht : 0 < T / Tc := by positivity
  have h2 : (7780 / 100000 * (T / Tc) : ℝ) ≠ 0 := by positivity
  unfold prCall pengRobinson
  simp only [show ((7780 / 100000 : ℚ) : ℝ) = 7780 / 100000 by norm_num,
    show ((45724 / 100000 : ℚ) : ℝ) = 45724 / 100000 by norm_num,
    show ((37464 / 100000 : ℚ) : ℝ) = 37464 / 100000 by norm_num,
    show ((154226 / 100000 : ℚ) : ℝ) = 154226 / 100000 by norm_num,
    show ((26992 / 100000 : ℚ) : ℝ) = 26992 / 100000 by norm_num, show ((2 : ℚ) : ℝ) = 2 by norm_num]
  rw [temp_ratio u T Tc hTc.ne', pres_ratio hv P Pc hPc.ne']
  simp only [pnum, ok_pow, ok_mul, ok_div, ok_add, ok_sub, Val.pow, pow_real_half ht.le, pow_real_two, Val.mul, Val.div,
    Val.add, Val.sub, pyDiv_ne ht.ne', pyDiv_ne h2, pow_real_half (show (0 : ℝ) ≤ 2 by norm_num)]

/-! ## The properties -/

/-- A converged Redlich-Kwong iteration, in either state, solves the Redlich-Kwong equation. -/
theorem C43_redlich_kwong {R : ℝ} (hR : 0 < R) {state : Sym} {n : ℤ} (hn : 0 ≤ n) {z : ℝ}
    (h1 : rkCall u v T P Tc Pc state n = .ok (.num z)) (h2 : rkCall u v T P Tc Pc state (n + 1) = .ok (.num z)) :
    RedlichKwongEOS R T P Tc Pc (z * R * T / P) := by
  rw [rk_eval hv hT hP hTc hPc] at h1 h2
  have hf := iterate_fix hn (by positivity) h1 h2
  refine eos_of_fix hR hT hP (by positivity) (by field_simp) ?_ hf
  have e1 : (T / Tc) ^ ((-1 / 2 : ℚ) : ℝ) = Real.sqrt Tc / Real.sqrt T := by
    rw [Real.sqrt_eq_rpow, Real.sqrt_eq_rpow, Real.div_rpow hT.le hTc.le]
    push_cast
    rw [show (-1 / 2 : ℝ) = -(1 / 2) by norm_num, Real.rpow_neg hT.le, Real.rpow_neg hTc.le]
    field_simp
  have e2 : Tc ^ (5 / 2 : ℝ) = Tc ^ 2 * Real.sqrt Tc := by
    rw [Real.sqrt_eq_rpow, ← Real.rpow_natCast, ← Real.rpow_add hTc]
    norm_num
  rw [e1, e2]
  have := Real.sqrt_pos.mpr hT
  field_simp

/-- A converged Soave iteration, in either state, solves the Soave equation. -/
theorem C43_soave {R : ℝ} (hR : 0 < R) {state : Sym} {w : ℝ} {n : ℤ} (hn : 0 ≤ n) {z : ℝ}
    (h1 : srkCall u v T P Tc Pc state w n = .ok (.num z)) (h2 : srkCall u v T P Tc Pc state w (n + 1) = .ok (.num z)) :
    SoaveEOS R T P Tc Pc w (z * R * T / P) := by
  rw [srk_eval hv hT hP hTc hPc] at h1 h2
  have hf := iterate_fix hn (by positivity) h1 h2
  refine eos_of_fix hR hT hP (by positivity) (by field_simp) ?_ hf
  field_simp

/-- Full statement: a converged van der Waals iteration solves the van der Waals equation (refuted below).  Proved: it
solves the Redlich-Kwong shaped equation `P = R T / (V - b) - a / (V (V + b))` with van der Waals' constants. -/
theorem C43_van_der_waals_partial {R : ℝ} (hR : 0 < R) {state : Sym} {n : ℤ} (hn : 0 ≤ n) {z : ℝ}
    (h1 : vdwCall u v T P Tc Pc state n = .ok (.num z)) (h2 : vdwCall u v T P Tc Pc state (n + 1) = .ok (.num z)) :
    CubicEOS 1 0 R T P (27 / 64 * R ^ 2 * Tc ^ 2 / Pc) (1 / 8 * R * Tc / Pc) (z * R * T / P) := by
  rw [vdw_eval hv hT hP hTc hPc] at h1 h2
  have hf := iterate_fix hn (by positivity) h1 h2
  refine eos_of_fix hR hT hP (by positivity) (by field_simp) ?_ hf
  field_simp

/-- A converged van der Waals iteration never solves the van der Waals equation. -/
theorem C43_van_der_waals_never {R : ℝ} (hR : 0 < R) {state : Sym} {n : ℤ} (hn : 0 ≤ n) {z : ℝ}
    (h1 : vdwCall u v T P Tc Pc state n = .ok (.num z)) (h2 : vdwCall u v T P Tc Pc state (n + 1) = .ok (.num z)) :
    ¬ VanDerWaalsEOS R T P Tc Pc (z * R * T / P) := by
  obtain ⟨a1, a2, a3⟩ := C43_van_der_waals_partial hv hT hP hTc hPc hR hn h1 h2
  rintro ⟨-, b2, b3⟩
  have hA : (27 / 64 * R ^ 2 * Tc ^ 2 / Pc) ≠ 0 := by positivity
  have hb : (1 / 8 * R * Tc / Pc) ≠ 0 := by positivity
  generalize (27 / 64 * R ^ 2 * Tc ^ 2 / Pc) = A at *
  generalize (1 / 8 * R * Tc / Pc) = b at *
  generalize z * R * T / P = V at *
  have e : A / ((V + 0 * b) * (V + 1 * b)) = A / ((V + 0 * b) * (V + 0 * b)) := by linarith
  rw [div_eq_div_iff a2 b2] at e
  have hV : V ≠ 0 := fun h => by simp [h] at a2
  have : A * b * V = 0 := by linarith
  exact mul_ne_zero (mul_ne_zero hA hb) hV this

/-- Full statement: a converged Peng-Robinson iteration solves the Peng-Robinson equation (refuted below).  Proved: it
solves the Redlich-Kwong shaped equation `P = R T / (V - b) - a α / (V (V + b))` with Peng-Robinson's constants. -/
theorem C43_peng_robinson_partial {R : ℝ} (hR : 0 < R) {state : Sym} {w : ℝ} {n : ℤ} (hn : 0 ≤ n) {z : ℝ}
    (h1 : prCall u v T P Tc Pc state w n = .ok (.num z)) (h2 : prCall u v T P Tc Pc state w (n + 1) = .ok (.num z)) :
    CubicEOS 1 0 R T P (45724 / 100000 * R ^ 2 * Tc ^ 2 / Pc *
      (1 + (37464 / 100000 + 154226 / 100000 * w - 26992 / 100000 * w ^ 2) * (1 - Real.sqrt (T / Tc))) ^ 2)
      (7780 / 100000 * R * Tc / Pc) (z * R * T / P) := by
  rw [pr_eval hv hT hP hTc hPc] at h1 h2
  have hf := iterate_fix hn (by positivity) h1 h2
  refine eos_of_fix hR hT hP (by positivity) (by field_simp) ?_ hf
  field_simp

/-- Unless the attraction parameter vanishes, a converged Peng-Robinson iteration never solves the Peng-Robinson
equation. -/
theorem C43_peng_robinson_never {R : ℝ} (hR : 0 < R) {state : Sym} {w : ℝ}
    (ha : 1 + (37464 / 100000 + 154226 / 100000 * w - 26992 / 100000 * w ^ 2) * (1 - Real.sqrt (T / Tc)) ≠ 0)
    {n : ℤ} (hn : 0 ≤ n) {z : ℝ}
    (h1 : prCall u v T P Tc Pc state w n = .ok (.num z)) (h2 : prCall u v T P Tc Pc state w (n + 1) = .ok (.num z)) :
    ¬ PengRobinsonEOS R T P Tc Pc w (z * R * T / P) := by
  obtain ⟨a1, a2, a3⟩ := C43_peng_robinson_partial hv hT hP hTc hPc hR hn h1 h2
  rintro ⟨-, b2, b3⟩
  have hA : (45724 / 100000 * R ^ 2 * Tc ^ 2 / Pc *
      (1 + (37464 / 100000 + 154226 / 100000 * w - 26992 / 100000 * w ^ 2) * (1 - Real.sqrt (T / Tc))) ^ 2) ≠ 0 :=
    mul_ne_zero (by positivity) (pow_ne_zero _ ha)
  have hb : (7780 / 100000 * R * Tc / Pc) ≠ 0 := by positivity
  generalize (45724 / 100000 * R ^ 2 * Tc ^ 2 / Pc *
      (1 + (37464 / 100000 + 154226 / 100000 * w - 26992 / 100000 * w ^ 2) * (1 - Real.sqrt (T / Tc))) ^ 2) = A at *
  generalize (7780 / 100000 * R * Tc / Pc) = b at *
  generalize z * R * T / P = V at *
  have e : A / ((V + 0 * b) * (V + 1 * b)) = A / ((V + (1 - Real.sqrt 2) * b) * (V + (1 + Real.sqrt 2) * b)) := by
    linarith
  rw [div_eq_div_iff a2 b2] at e
  have h3 : Real.sqrt 2 * Real.sqrt 2 = 2 := Real.mul_self_sqrt (by norm_num)
  have e2 : (V + (1 - Real.sqrt 2) * b) * (V + (1 + Real.sqrt 2) * b) = V ^ 2 + 2 * b * V - b ^ 2 := by
    have : (V + (1 - Real.sqrt 2) * b) * (V + (1 + Real.sqrt 2) * b) =
      V ^ 2 + 2 * b * V + (1 - Real.sqrt 2 * Real.sqrt 2) * b ^ 2 := by ring
    rw [this, h3]; ring
  rw [e2] at e
  have : A * b * (V - b) = 0 := by linarith
  exact mul_ne_zero (mul_ne_zero hA hb) (sub_ne_zero.mpr a1) this

/-- The compressibility factors of converged vapour and liquid Redlich-Kwong runs are roots of one cubic. -/
theorem C43_redlich_kwong_cubic {state : Sym} {n : ℤ} (hn : 0 ≤ n) {z : ℝ}
    (h1 : rkCall u v T P Tc Pc state n = .ok (.num z)) (h2 : rkCall u v T P Tc Pc state (n + 1) = .ok (.num z)) :
    let B := 8664 / 100000 * (P / Pc) / (T / Tc)
    let A := 42748 / 100000 * (P / Pc) / ((T / Tc) ^ 2 * Real.sqrt (T / Tc))
    z ^ 3 - z ^ 2 + (A - B - B ^ 2) * z - A * B = 0 := by
  rw [rk_eval hv hT hP hTc hPc] at h1 h2
  obtain ⟨-, -, -, h⟩ := iterate_fix hn (by positivity) h1 h2
  have ht : 0 < T / Tc := by positivity
  intro B A
  have hs := Real.sqrt_pos.mpr ht
  have e1 : (T / Tc) ^ ((-1 / 2 : ℚ) : ℝ) = 1 / Real.sqrt (T / Tc) := by
    rw [Real.sqrt_eq_rpow]
    push_cast
    rw [show (-1 / 2 : ℝ) = -(1 / 2) by norm_num, Real.rpow_neg ht.le]
    exact inv_eq_one_div _
  have hB : 8664 / 100000 * (P / Pc / (T / Tc)) = B := by simp only [B]; ring
  have hA : 42748 / 100000 * (T / Tc) ^ ((-1 / 2 : ℚ) : ℝ) / (8664 / 100000 * (T / Tc)) * B = A := by
    rw [e1]; simp only [A, B]; field_simp
  rw [hB, hA] at h
  linear_combination -h

/-- As above for Soave's equation. -/
theorem C43_soave_cubic {state : Sym} {w : ℝ} {n : ℤ} (hn : 0 ≤ n) {z : ℝ}
    (h1 : srkCall u v T P Tc Pc state w n = .ok (.num z)) (h2 : srkCall u v T P Tc Pc state w (n + 1) = .ok (.num z)) :
    let B := 8664 / 100000 * (P / Pc) / (T / Tc)
    let A := 42748 / 100000 * (1 + (480 / 1000 + 1574 / 1000 * w - 176 / 1000 * w ^ 2) * (1 - Real.sqrt (T / Tc))) ^ 2 *
      (P / Pc) / (T / Tc) ^ 2
    z ^ 3 - z ^ 2 + (A - B - B ^ 2) * z - A * B = 0 := by
  rw [srk_eval hv hT hP hTc hPc] at h1 h2
  obtain ⟨-, -, -, h⟩ := iterate_fix hn (by positivity) h1 h2
  intro B A
  have hB : 8664 / 100000 * (P / Pc / (T / Tc)) = B := by simp only [B]; ring
  have hA : 42748 / 100000 * (1 + (480 / 1000 + 1574 / 1000 * w - 176 / 1000 * w ^ 2) *
      (1 - Real.sqrt (T / Tc))) ^ 2 / (8664 / 100000 * (T / Tc)) * B = A := by
    simp only [A, B]; field_simp
  rw [hB, hA] at h
  linear_combination -h

/-- A state other than "vapor" and "liquid" leaves `z_iter` unbound in all four functions. -/
theorem C43_other_state {state : Sym} (h1 : state ≠ c!"vapor") (h2 : state ≠ c!"liquid") (w : ℝ) (n : ℤ) :
    rkCall u v T P Tc Pc state n = .error .unboundLocal ∧ vdwCall u v T P Tc Pc state n = .error .unboundLocal ∧
    srkCall u v T P Tc Pc state w n = .error .unboundLocal ∧ prCall u v T P Tc Pc state w n = .error .unboundLocal := by
  rw [rk_eval hv hT hP hTc hPc, vdw_eval hv hT hP hTc hPc, srk_eval hv hT hP hTc hPc, pr_eval hv hT hP hTc hPc]
  exact ⟨iterate_other h1 h2, iterate_other h1 h2, iterate_other h1 h2, iterate_other h1 h2⟩

end

/-! ## Witnesses -/

theorem vapour_one {beta q : ℝ} (hb : 0 < beta) (h : q * (1 - beta) = 1 + beta) :
    vapourStep (pnum beta) (pnum q) (pnum 1) = .ok (.num 1) := by
  have hz : (1 : ℝ) * (1 + beta) ≠ 0 := by positivity
  simp only [vapourStep, pnum, ok_mul, ok_div, ok_add, ok_sub, Val.add, Val.sub, Val.mul, Val.div, pyDiv_ne hz,
      Except.ok.injEq, Val.num.injEq]
  have : q * beta * ((1 - beta) / (1 * (1 + beta))) = beta * (q * (1 - beta)) / (1 + beta) := by field_simp
  rw [this, h]
  field_simp
  ring

theorem converged_one {beta q : ℝ} (hb : 0 < beta) (h : q * (1 - beta) = 1 + beta) (n : ℕ) (fl : PyM (Val ℝ)) :
    iterateState c!"vapor" n (pnum beta) (pnum q) (vapourStep (pnum beta) (pnum q) (pnum 1)) fl = .ok (.num 1) := by
  have : ∀ n : ℕ, loop (vapourStep (pnum beta) (pnum q)) n (pnum 1) = .ok (.num 1) := by
    intro n
    induction n with
    | zero => rfl
    | succ n ih => rw [loop_succ, ih]; exact vapour_one hb h
  rw [vapour_one hb h]
  exact this n

/-- The van der Waals function converges at once at `T = 27, Tc = 16, P = 9, Pc = 2`. -/
theorem vdw_witness (n : ℕ) : vdwCall c!"K" c!"atm" 27 9 16 2 c!"vapor" n = .ok (.num 1) := by
  rw [vdw_eval (by decide) (by norm_num) (by norm_num) (by norm_num) (by norm_num)]
  exact converged_one (by norm_num) (by norm_num) n _

theorem C43_van_der_waals_false : ¬ ∀ R T P Tc Pc : ℝ, 0 < R → 0 < T → 0 < P → 0 < Tc → 0 < Pc → ∀ (state : Sym) (n : ℤ),
    0 ≤ n → ∀ z : ℝ, vdwCall c!"K" c!"atm" T P Tc Pc state n = .ok (.num z) →
      vdwCall c!"K" c!"atm" T P Tc Pc state (n + 1) = .ok (.num z) → VanDerWaalsEOS R T P Tc Pc (z * R * T / P) := by
  intro h
  refine C43_van_der_waals_never (u := c!"K") (v := c!"atm") (T := 27) (P := 9) (Tc := 16) (Pc := 2) (R := 1) (by decide)
    (by norm_num) (by norm_num) (by norm_num) (by norm_num) (by norm_num) (state := c!"vapor") (n := 0) le_rfl
    (vdw_witness 0) (vdw_witness 1) ?_
  exact h 1 27 9 16 2 (by norm_num) (by norm_num) (by norm_num) (by norm_num) (by norm_num) _ 0 le_rfl _ (vdw_witness 0)
    (vdw_witness 1)

/-- The Redlich-Kwong function converges at once here: the hypotheses of `C43_redlich_kwong` are satisfiable. -/
theorem rk_witness (n : ℕ) :
    rkCall c!"K" c!"atm" 300 ((42748 - 8664) / (42748 + 8664) / (8664 / 100000)) 300 1 c!"vapor" n = .ok (.num 1) := by
  rw [rk_eval (by decide) (by norm_num) (by norm_num) (by norm_num) (by norm_num)]
  refine converged_one (by norm_num) ?_ n _
  norm_num

example : RedlichKwongEOS 8 300 ((42748 - 8664) / (42748 + 8664) / (8664 / 100000)) 300 1
    (1 * 8 * 300 / ((42748 - 8664) / (42748 + 8664) / (8664 / 100000))) :=
  C43_redlich_kwong (by decide) (by norm_num) (by norm_num) (by norm_num) (by norm_num) (by norm_num) (n := 0) le_rfl
    (rk_witness 0) (rk_witness 1)

theorem srk_witness (n : ℕ) :
    srkCall c!"R" c!"kPa" 300 ((42748 - 8664) / (42748 + 8664) / (8664 / 100000)) 300 1 c!"vapor" (1 / 10) n =
      .ok (.num 1) := by
  rw [srk_eval (by decide) (by norm_num) (by norm_num) (by norm_num) (by norm_num)]
  refine converged_one (by norm_num) ?_ n _
  norm_num

example : SoaveEOS 8 300 ((42748 - 8664) / (42748 + 8664) / (8664 / 100000)) 300 1 (1 / 10)
    (1 * 8 * 300 / ((42748 - 8664) / (42748 + 8664) / (8664 / 100000))) :=
  C43_soave (by decide) (by norm_num) (by norm_num) (by norm_num) (by norm_num) (by norm_num) (n := 0) le_rfl
    (srk_witness 0) (srk_witness 1)

/-- A liquid run that has converged after the first step: `q = 2`, `β = 2/3`, `Z = 4/3`. -/
theorem pr_loop (n : ℕ) (fv : PyM (Val ℝ)) {beta q : ℝ} (hb : beta = 2 / 3) (hq : q = 2) :
    iterateState c!"liquid" n (pnum beta) (pnum q) fv
      (prStep (pnum (1 + Real.sqrt 2)) (pnum (1 - Real.sqrt 2)) (pnum beta) (pnum q) (pnum beta)) = .ok (.num (4 / 3)) := by
  subst hb hq
  have h3 : Real.sqrt 2 * Real.sqrt 2 = 2 := Real.mul_self_sqrt (by norm_num)
  have hz : (2 : ℝ) * (2 / 3) ≠ 0 := by norm_num
  have h0 : prStep (pnum (1 + Real.sqrt 2)) (pnum (1 - Real.sqrt 2)) (pnum (2 / 3)) (pnum 2) (pnum (2 / 3)) =
      .ok (.num (4 / 3)) := by
    simp only [prStep, pnum, ok_mul, ok_div, ok_add, ok_sub, Val.add, Val.sub, Val.mul, Val.div, pyDiv_ne hz,
      Except.ok.injEq, Val.num.injEq]
    have : (2 / 3 : ℝ) + (2 / 3 + (1 - Real.sqrt 2) * (2 / 3)) * (2 / 3 + (1 + Real.sqrt 2) * (2 / 3)) *
      ((1 + 2 / 3 - 2 / 3) / (2 * (2 / 3))) = 2 / 3 + (4 - Real.sqrt 2 * Real.sqrt 2) / 3 := by ring
    rw [this, h3]; norm_num
  have h1 : ∀ n : ℕ, loop (liquidStep (pnum (2 / 3)) (pnum 2)) n (.ok (.num (4 / 3 : ℝ))) = .ok (.num (4 / 3)) := by
    intro n
    induction n with
    | zero => rfl
    | succ n ih =>
      rw [loop_succ, ih]
      simp only [liquidStep, pnum, ok_mul, ok_div, ok_add, ok_sub, Val.add, Val.sub, Val.mul, Val.div, pyDiv_ne hz,
        Except.ok.injEq, Val.num.injEq]
      norm_num
  rw [h0]
  exact h1 n

/-- There is an acentric factor for which `α = 1` at every temperature. -/
theorem exists_acentric : ∃ w : ℝ, 37464 / 100000 + 154226 / 100000 * w - 26992 / 100000 * w ^ 2 = 0 := by
  obtain ⟨D, hD⟩ : ∃ D : ℝ, D = Real.sqrt (154226 ^ 2 + 4 * 26992 * 37464) := ⟨_, rfl⟩
  refine ⟨(154226 - D) / (2 * 26992), ?_⟩
  have h : D ^ 2 = 154226 ^ 2 + 4 * 26992 * 37464 := by rw [hD]; exact Real.sq_sqrt (by norm_num)
  linear_combination -h / (4 * 26992 * 100000)

theorem C43_peng_robinson_false : ¬ ∀ R T P Tc Pc w : ℝ, 0 < R → 0 < T → 0 < P → 0 < Tc → 0 < Pc →
    ∀ (state : Sym) (n : ℤ), 0 ≤ n → ∀ z : ℝ, prCall c!"K" c!"atm" T P Tc Pc state w n = .ok (.num z) →
      prCall c!"K" c!"atm" T P Tc Pc state w (n + 1) = .ok (.num z) → PengRobinsonEOS R T P Tc Pc w (z * R * T / P) := by
  intro h
  obtain ⟨w, hw⟩ := exists_acentric
  have hp : ∀ n : ℕ, prCall c!"K" c!"atm" (45724 / 100) (2 / 3 * (45724 / 15560) / (7780 / 100000)) (15560 / 100) 1
      c!"liquid" w n = .ok (.num (4 / 3)) := by
    intro n
    rw [pr_eval (by decide) (by norm_num) (by norm_num) (by norm_num) (by norm_num)]
    exact pr_loop n _ (by norm_num) (by rw [hw]; norm_num)
  refine C43_peng_robinson_never (u := c!"K") (v := c!"atm") (R := 1) (by decide) (by norm_num) (by norm_num)
    (by norm_num) (by norm_num) (by norm_num) (by rw [hw]; norm_num) (n := 0) le_rfl (hp 0) (hp 1) ?_
  exact h 1 _ _ _ _ w (by norm_num) (by norm_num) (by norm_num) (by norm_num) (by norm_num) _ 0 le_rfl _ (hp 0) (hp 1)

end Verif
