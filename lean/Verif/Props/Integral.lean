import Verif.Reactions.Integral
import Mathlib.Tactic.Linarith
import Mathlib.Tactic.FieldSimp
import Mathlib.Tactic.LinearCombination
import Mathlib.Tactic.Positivity

/-!
# C56: the integral method
-/

namespace Verif

/-! ## Specification -/

/-- `Σ xᵢ yᵢ`. -/
noncomputable def dot (a b : List ℝ) : ℝ := (List.zipWith (· * ·) a b).sum

/-- `n Σ xᵢ yᵢ - Σ xᵢ Σ yᵢ`. -/
noncomputable def cross (a b : List ℝ) : ℝ := a.length * dot a b - a.sum * b.sum

/-- The squared correlation coefficient of two series of equal length; undefined if a series is constant. -/
noncomputable def R2 (a b : List ℝ) : Option ℝ :=
  if cross a a * cross b b = 0 then none else some (cross a b ^ 2 / (cross a a * cross b b))

/-- The integrated rate law: for order `n` this function of the concentration is linear in time. -/
noncomputable def integrated (n x : ℝ) : ℝ := if n = 1 then Real.log x else x ^ (1 - n)

/-- `(o, r)` is the best fit among the orders `is`: no order does better, and `o` attains `r` (or nothing correlates). -/
def BestFit (time data is : List ℝ) (o r : ℝ) : Prop :=
  (∀ i ∈ is, ∀ x, R2 time (data.map (integrated i)) = some x → x ≤ r) ∧
    ((o = 0 ∧ r = 0) ∨ (o ∈ is ∧ R2 time (data.map (integrated o)) = some r))

/-! ## Correlation lemmas -/

theorem sum_sub_mul (m n : ℝ) : ∀ (a b : List ℝ), a.length = b.length →
    (List.zipWith (fun x y => (x - m) * (y - n)) a b).sum = dot a b - n * a.sum - m * b.sum + a.length * (m * n)
  | [], [], _ => by simp [dot]
  | x :: a, y :: b, h => by
    have ih := sum_sub_mul m n a b (by simpa using h)
    simp only [dot, List.zipWith_cons_cons, List.sum_cons, List.length_cons] at ih ⊢
    rw [ih]; push_cast; ring

theorem coSum_eq (a b : List ℝ) (h : a.length = b.length) : a.length * coSum a b = cross a b := by
  unfold coSum
  rw [sum_sub_mul _ _ a b h]
  unfold cross mean
  rw [← h]
  by_cases h0 : (a.length : ℝ) = 0
  · have : a = [] := by simpa using h0
    subst this
    simp
  · field_simp
    ring

theorem dot_nonneg_self : ∀ a : List ℝ, 0 ≤ dot a a
  | [] => by simp [dot]
  | x :: a => by
    have := dot_nonneg_self a
    simp only [dot, List.zipWith_cons_cons, List.sum_cons] at this ⊢
    nlinarith [mul_self_nonneg x]

/-- Cauchy-Schwarz. -/
theorem dot_sq_le : ∀ a b : List ℝ, a.length = b.length → dot a b ^ 2 ≤ dot a a * dot b b
  | [], [], _ => by simp [dot]
  | x :: a, y :: b, h => by
    have ih := dot_sq_le a b (by simpa using h)
    have hA := dot_nonneg_self a
    have hB := dot_nonneg_self b
    have e : ∀ (u v : ℝ) (p q : List ℝ), dot (u :: p) (v :: q) = u * v + dot p q := by
      intro u v p q; simp [dot]
    rw [e, e, e]
    generalize dot a b = S at *
    generalize dot a a = A at *
    generalize dot b b = B at *
    have key : 2 * (S * (x * y)) ≤ A * y ^ 2 + B * x ^ 2 := by
      refine le_of_sq_le_sq ?_ (by positivity)
      nlinarith [mul_le_mul_of_nonneg_right ih (sq_nonneg (x * y)), sq_nonneg (A * y ^ 2 - B * x ^ 2)]
    nlinarith
where le_of_sq_le_sq {a b : ℝ} (h : a ^ 2 ≤ b ^ 2) (hb : 0 ≤ b) : a ≤ b :=
  le_trans (le_abs_self a) (abs_le_of_sq_le_sq h hb)

theorem coSum_dot (a b : List ℝ) : coSum a b = dot (a.map (· - mean a)) (b.map (· - mean b)) := by
  unfold coSum dot
  rw [List.zipWith_map]

theorem coSum_sq_le (a b : List ℝ) (h : a.length = b.length) : coSum a b ^ 2 ≤ coSum a a * coSum b b := by
  rw [coSum_dot, coSum_dot, coSum_dot]
  exact dot_sq_le _ _ (by simpa using h)

theorem coSum_self_nonneg (a : List ℝ) : 0 ≤ coSum a a := by rw [coSum_dot]; exact dot_nonneg_self _

theorem allFin_map : ∀ l : List ℝ, allFin (l.map .fin) = some l
  | [] => rfl
  | x :: l => by simp [allFin, allFin_map l]

theorem allFin_some : ∀ {l : List NpF} {m : List ℝ}, allFin l = some m → l = m.map .fin
  | [], m, h => by simp [allFin] at h; simp [← h]
  | .fin x :: l, m, h => by
    simp only [allFin, Option.map_eq_some_iff] at h
    obtain ⟨r, hr, rfl⟩ := h
    rw [allFin_some hr]; rfl
  | .inf :: l, m, h => by simp [allFin] at h
  | .nan :: l, m, h => by simp [allFin] at h

/-- The model's r squared is the squared correlation coefficient. -/
theorem rSquared_eq (a b : List ℝ) (h : a.length = b.length) : rSquared a (b.map .fin) = .ok (R2 a b) := by
  unfold rSquared R2
  rw [if_neg (by simpa using h), allFin_map]
  simp only
  rw [← coSum_eq a b h, ← coSum_eq a a rfl, ← coSum_eq b b rfl, ← h]
  by_cases h0 : (a.length : ℝ) = 0
  · have ha : a = [] := by simpa using h0
    subst ha
    simp [coSum]
  · have e : (a.length : ℝ) * coSum a a * (a.length * coSum b b) = a.length ^ 2 * (coSum a a * coSum b b) := by ring
    rw [e]
    by_cases h1 : coSum a a * coSum b b = 0
    · simp [h1]
    · rw [if_neg h1, if_neg (mul_ne_zero (pow_ne_zero _ h0) h1)]
      congr 2
      field_simp

theorem rSquared_bounds {a : List ℝ} {b : List NpF} {r : ℝ} (h : rSquared a b = .ok (some r)) : 0 ≤ r ∧ r ≤ 1 := by
  unfold rSquared at h
  split_ifs at h with h1
  split at h
  · simp at h
  · rename_i l hl
    split_ifs at h with h2
    · simp at h
    · simp only [Except.ok.injEq, Option.some.injEq] at h
      subst h
      have hlen : a.length = l.length := by rw [allFin_some hl] at h1; simpa using h1
      have h3 := coSum_self_nonneg a
      have h4 := coSum_self_nonneg l
      have h5 : 0 < coSum a a * coSum l l := lt_of_le_of_ne (mul_nonneg h3 h4) (Ne.symm h2)
      exact ⟨by positivity, (div_le_one h5).mpr (coSum_sq_le a l hlen)⟩

/-- Scaling a series does not change the correlation. -/
theorem R2_scale (a b : List ℝ) {c : ℝ} (hc : c ≠ 0) : R2 a (b.map (· / c)) = R2 a b := by
  have d : ∀ (p q : List ℝ), dot p (q.map (· / c)) = dot p q / c := by
    intro p
    induction p with
    | nil => intro q; simp [dot]
    | cons x p ih =>
      intro q
      cases q with
      | nil => simp [dot]
      | cons y q =>
        have := ih q
        simp only [dot, List.map_cons, List.zipWith_cons_cons, List.sum_cons] at this ⊢
        rw [this]; ring
  have d' : ∀ (p q : List ℝ), dot (p.map (· / c)) q = dot p q / c := by
    intro p
    induction p with
    | nil => intro q; simp [dot]
    | cons x p ih =>
      intro q
      cases q with
      | nil => simp [dot]
      | cons y q =>
        have := ih q
        simp only [dot, List.map_cons, List.zipWith_cons_cons, List.sum_cons] at this ⊢
        rw [this]; ring
  have s : ∀ p : List ℝ, (p.map (· / c)).sum = p.sum / c := by
    intro p
    induction p with
    | nil => simp
    | cons x p ih => simp only [List.map_cons, List.sum_cons, ih]; ring
  have e1 : cross a (b.map (· / c)) = cross a b / c := by unfold cross; rw [d, s]; ring
  have e2 : cross (b.map (· / c)) (b.map (· / c)) = cross b b / c ^ 2 := by
    unfold cross; rw [d, d', s, List.length_map]; field_simp
  unfold R2
  rw [e1, e2]
  by_cases h : cross a a * cross b b = 0
  · rw [if_pos h, if_pos (by rw [← mul_div_assoc, h, zero_div])]
  · rw [if_neg h, if_neg (by rw [← mul_div_assoc]; exact div_ne_zero h (pow_ne_zero _ hc))]
    congr 1
    have h1 := left_ne_zero_of_mul h
    have h2 := right_ne_zero_of_mul h
    field_simp

/-! ## The transformation of the data -/

theorem mapM'_log : ∀ l : List ℝ, (∀ x ∈ l, 0 < x) → mapM' NpF.log (l.map .fin) = .ok ((l.map Real.log).map .fin)
  | [], _ => rfl
  | x :: l, h => by
    simp [mapM', NpF.log, h x List.mem_cons_self, mapM'_log l (fun y hy => h y (List.mem_cons_of_mem _ hy))]

/-- On positive data and for a non-negative order the transformed data have the correlation of the integrated law. -/
theorem transform_spec (time data : List ℝ) (i : ℝ) (hi : 0 ≤ i) (hd : ∀ x ∈ data, 0 < x) :
    ∃ d, transform i (data.map .fin) = .ok (d.map .fin) ∧ d.length = data.length ∧
      R2 time d = R2 time (data.map (integrated i)) := by
  unfold transform
  by_cases h1 : i = 1
  · refine ⟨data.map Real.log, ?_, by simp, ?_⟩
    · rw [if_pos h1, mapM'_log data hd]
    · congr 1; simp [integrated, h1]
  rw [if_neg h1]
  by_cases h2 : i < 1 ∧ i > 0
  · refine ⟨(data.map (integrated i)).map (· / (-i + 1)), ?_, by simp, ?_⟩
    · rw [if_pos h2]
      congr 1
      rw [List.map_map, List.map_map, List.map_map]
      refine List.map_congr_left fun x hx => ?_
      simp [NpF.pow, NpF.divBy, (hd x hx).le, integrated, h1, sub_eq_neg_add]
    · exact R2_scale _ _ (by linarith [h2.1])
  rw [if_neg h2]
  by_cases h3 : i ≥ 1
  · refine ⟨data.map (integrated i), ?_, by simp, rfl⟩
    rw [if_pos h3]
    congr 1
    rw [List.map_map, List.map_map]
    refine List.map_congr_left fun x hx => ?_
    have hx := hd x hx
    have : x ^ (i - 1) ≠ 0 := (Real.rpow_pos_of_pos hx _).ne'
    simp only [Function.comp, NpF.pow, hx.le, true_or, if_true, NpF.inv, this, if_false, integrated, h1]
    rw [show (1 - i) = -(i - 1) by ring, Real.rpow_neg hx.le, inv_eq_one_div]
  · have h0 : i = 0 := by
      by_contra hne
      exact h2 ⟨not_le.mp h3, lt_of_le_of_ne hi (Ne.symm hne)⟩
    refine ⟨data, by rw [if_neg h3], rfl, ?_⟩
    have : integrated i = id := by funext x; simp [integrated, h0]
    rw [this, List.map_id]

/-! ## The loop -/

theorem integralLoop_bounds (time : List ℝ) : ∀ (is : List ℝ) (data : List NpF) (o b : ℝ) (p : ℝ × ℝ), 0 ≤ b → b ≤ 1 →
    integralLoop time is data o b = .ok p → b ≤ p.2 ∧ p.2 ≤ 1
  | [], _, o, b, p, _, h1, h => by
    simp only [integralLoop, Except.ok.injEq] at h
    subst h
    exact ⟨le_rfl, h1⟩
  | i :: is, data, o, b, p, h0, h1, h => by
    unfold integralLoop at h
    split at h
    · cases h
    · split at h
      · cases h
      · rename_i r hr
        have hb := rSquared_bounds hr
        split_ifs at h with hgt
        · have := integralLoop_bounds time is _ i r p hb.1 hb.2 h
          exact ⟨by linarith [this.1], this.2⟩
        · exact integralLoop_bounds time is _ o b p h0 h1 h
      · exact integralLoop_bounds time is _ o b p h0 h1 h

/-- r squared is always between 0 and 1. -/
theorem C56_bounds (time data : List ℝ) (start stop step o r : ℝ)
    (h : integralMethod time data start stop step = .ok (o, r)) : 0 ≤ r ∧ r ≤ 1 := by
  unfold integralMethod at h
  split at h
  · cases h
  · exact integralLoop_bounds time _ _ _ _ _ le_rfl zero_le_one h

theorem integralLoop_best (time data : List ℝ) (hl : time.length = data.length) (hd : ∀ x ∈ data, 0 < x) :
    ∀ (is : List ℝ) (o b : ℝ), (∀ i ∈ is, 0 ≤ i) → (∀ i ∈ is.dropLast, i = 0) →
      ∃ o' r', integralLoop time is (data.map .fin) o b = .ok (o', r') ∧ b ≤ r' ∧
        (∀ i ∈ is, ∀ x, R2 time (data.map (integrated i)) = some x → x ≤ r') ∧
        ((o' = o ∧ r' = b) ∨ (o' ∈ is ∧ R2 time (data.map (integrated o')) = some r'))
  | [], o, b, _, _ => ⟨o, b, rfl, le_rfl, by simp, Or.inl ⟨rfl, rfl⟩⟩
  | i :: is, o, b, h0, hz => by
    obtain ⟨d, ht, hdl, hR⟩ := transform_spec time data i (h0 i List.mem_cons_self) hd
    have hrs : rSquared time (d.map .fin) = .ok (R2 time (data.map (integrated i))) := by
      rw [rSquared_eq time d (by rw [hl, hdl]), hR]
    -- the rest of the loop, from accumulators `o₁, b₁`
    have rest : ∀ o₁ b₁, ∃ o' r', integralLoop time is (d.map .fin) o₁ b₁ = .ok (o', r') ∧ b₁ ≤ r' ∧
        (∀ i ∈ is, ∀ x, R2 time (data.map (integrated i)) = some x → x ≤ r') ∧
        ((o' = o₁ ∧ r' = b₁) ∨ (o' ∈ is ∧ R2 time (data.map (integrated o')) = some r')) := by
      intro o₁ b₁
      cases is with
      | nil => exact ⟨o₁, b₁, rfl, le_rfl, by simp, Or.inl ⟨rfl, rfl⟩⟩
      | cons j js =>
        have hi : i = 0 := hz i (by simp)
        have hdd : d.map NpF.fin = data.map NpF.fin := by
          simpa [transform, hi, show ¬ (1 : ℝ) ≤ 0 by norm_num] using ht.symm
        rw [hdd]
        exact integralLoop_best time data hl hd (j :: js) o₁ b₁ (fun x hx => h0 x (List.mem_cons_of_mem _ hx))
          (fun x hx => hz x (by rw [List.dropLast_cons_of_ne_nil (by simp)]; exact List.mem_cons_of_mem _ hx))
    unfold integralLoop
    rw [ht]
    simp only
    rw [hrs]
    cases hx : R2 time (data.map (integrated i)) with
    | none =>
      simp only
      obtain ⟨o', r', e, h1, h2, h3⟩ := rest o b
      refine ⟨o', r', e, h1, ?_, ?_⟩
      · intro k hk x hkx
        rcases List.mem_cons.mp hk with rfl | hk
        · rw [hx] at hkx; cases hkx
        · exact h2 k hk x hkx
      · exact h3.imp id fun h => ⟨List.mem_cons_of_mem _ h.1, h.2⟩
    | some r =>
      simp only
      split_ifs with hgt
      · obtain ⟨o', r', e, h1, h2, h3⟩ := rest i r
        refine ⟨o', r', e, by linarith, ?_, ?_⟩
        · intro k hk x hkx
          rcases List.mem_cons.mp hk with rfl | hk
          · rw [hx] at hkx; obtain rfl := Option.some.inj hkx; exact h1
          · exact h2 k hk x hkx
        · rcases h3 with ⟨rfl, rfl⟩ | h
          · exact Or.inr ⟨List.mem_cons_self, hx⟩
          · exact Or.inr ⟨List.mem_cons_of_mem _ h.1, h.2⟩
      · obtain ⟨o', r', e, h1, h2, h3⟩ := rest o b
        refine ⟨o', r', e, h1, ?_, ?_⟩
        · intro k hk x hkx
          rcases List.mem_cons.mp hk with rfl | hk
          · rw [hx] at hkx; obtain rfl := Option.some.inj hkx; linarith
          · exact h2 k hk x hkx
        · exact h3.imp id fun h => ⟨List.mem_cons_of_mem _ h.1, h.2⟩

/-- Full statement: for positive data the result is the best fit among the orders of the range (refuted below).  Proved when
only the last order of the range differs from zero (for example a single order, or 0 and one other). -/
theorem C56_best_fit_partial (time data is : List ℝ) (start stop step : ℝ) (hl : time.length = data.length)
    (hd : ∀ x ∈ data, 0 < x) (his : arange start stop step = .ok is) (h0 : ∀ i ∈ is, 0 ≤ i)
    (hz : ∀ i ∈ is.dropLast, i = 0) :
    ∃ o r, integralMethod time data start stop step = .ok (o, r) ∧ BestFit time data is o r := by
  unfold integralMethod
  rw [his]
  obtain ⟨o, r, e, -, h2, h3⟩ := integralLoop_best time data hl hd is 0 0 h0 hz
  exact ⟨o, r, e, h2, h3⟩

theorem arange_one (j : ℝ) : arange j (j + 1) 1 = .ok [j] := by
  simp [arange]

theorem arange_two (a : ℝ) : arange a (a + 2) 1 = .ok [a, a + 1] := by
  have h : (a + 2 - a) / 1 = ((2 : ℤ) : ℝ) := by norm_num
  unfold arange
  rw [if_neg one_ne_zero, h, Int.ceil_intCast]
  have : (2 : ℤ).toNat = 2 := rfl
  simp [this, List.range_succ]

/-- Non-vacuity: orders 0 and 1 on three points of an exponential decay; first order fits perfectly. -/
example : ∃ o r, integralMethod [0, 1, 2] [Real.exp 3, Real.exp 2, Real.exp 1] 0 (0 + 2) 1 = .ok (o, r) ∧ r = 1 := by
  obtain ⟨o, r, h, hb⟩ := C56_best_fit_partial [0, 1, 2] [Real.exp 3, Real.exp 2, Real.exp 1] [0, 0 + 1] 0 (0 + 2) 1 rfl
    (by simp [Real.exp_pos]) (arange_two 0) (by simp) (by simp)
  refine ⟨o, r, h, le_antisymm (C56_bounds _ _ _ _ _ _ _ h).2 (hb.1 (0 + 1) (by simp) 1 ?_)⟩
  norm_num [R2, cross, dot, integrated]

/-! ## Refutation -/

/-- Three equidistant times: the fit is perfect only if the second difference vanishes. -/
theorem rSquared_three {a b c r : ℝ} (h : a - 2 * b + c ≠ 0)
    (hr : rSquared [0, 1, 2] [.fin a, .fin b, .fin c] = .ok (some r)) : r < 1 := by
  have e := rSquared_eq [0, 1, 2] [a, b, c] rfl
  simp only [List.map_cons, List.map_nil] at e
  rw [e] at hr
  simp only [Except.ok.injEq] at hr
  unfold R2 at hr
  split_ifs at hr with h1
  simp only [Option.some.injEq] at hr
  subst hr
  have e1 : cross [0, 1, 2] [0, 1, 2] = 6 := by norm_num [cross, dot]
  have e2 : cross [0, 1, 2] [a, b, c] = 3 * (c - a) := by simp only [cross, dot]; norm_num; ring
  have e3 : cross [a, b, c] [a, b, c] = 3 / 2 * (c - a) ^ 2 + 1 / 2 * (a - 2 * b + c) ^ 2 := by
    simp only [cross, dot]; norm_num; ring
  have hp := sq_pos_of_ne_zero h
  rw [e1, e2, e3, div_lt_one (by positivity)]
  linarith

/-- Second order data, tested with orders 1 and 2: the second order fit is perfect, but the code evaluates order 2 on the
logarithms left behind by order 1 and reports an r squared below 1. -/
theorem C56_best_fit_false : ¬ ∀ (time data is : List ℝ) (start stop step o r : ℝ), time.length = data.length →
    (∀ x ∈ data, 0 < x) → arange start stop step = .ok is → (∀ i ∈ is, 0 ≤ i) →
    integralMethod time data start stop step = .ok (o, r) → BestFit time data is o r := by
  intro h
  have hp : ∀ x ∈ [(1 / 2 : ℝ), 1 / 3, 1 / 4], 0 < x := by norm_num
  have h2 : Real.log (1 / 2) = -Real.log 2 := by rw [one_div, Real.log_inv]
  have h3 : Real.log (1 / 3) = -Real.log 3 := by rw [one_div, Real.log_inv]
  have h4 : Real.log (1 / 4) = -(2 * Real.log 2) := by
    rw [one_div, Real.log_inv, show (4 : ℝ) = 2 ^ 2 by norm_num, Real.log_pow]; norm_num
  have l2 : 0 < Real.log 2 := Real.log_pos (by norm_num)
  have l3 : 0 < Real.log 3 := Real.log_pos (by norm_num)
  -- the data of the first pass
  have t1 : transform 1 ([1 / 2, 1 / 3, 1 / 4].map .fin) =
      .ok [.fin (-Real.log 2), .fin (-Real.log 3), .fin (-(2 * Real.log 2))] := by
    unfold transform
    rw [if_pos rfl, mapM'_log _ hp]
    simp only [List.map_cons, List.map_nil, h2, h3, h4]
  -- and of the second
  have t2 : transform (1 + 1) [.fin (-Real.log 2), .fin (-Real.log 3), .fin (-(2 * Real.log 2))] =
      .ok [.fin (1 / -Real.log 2), .fin (1 / -Real.log 3), .fin (1 / -(2 * Real.log 2))] := by
    unfold transform
    rw [if_neg (by norm_num), if_neg (by norm_num), if_pos (by norm_num)]
    have e1 : (1 : ℝ) + 1 - 1 = 1 := by norm_num
    have key : ∀ x : ℝ, x ≠ 0 → ((NpF.fin x).pow 1).inv = .fin (1 / x) := by
      intro x hx
      have hi : ∃ n : ℤ, (1 : ℝ) = n := ⟨1, by norm_num⟩
      simp only [NpF.pow]
      rw [if_pos (Or.inr hi)]
      simp [NpF.inv, hx]
    simp only [List.map_cons, List.map_nil, e1]
    rw [key _ (neg_ne_zero.mpr l2.ne'), key _ (neg_ne_zero.mpr l3.ne'), key _ (by simp [l2.ne'])]
  have n1 : -Real.log 2 - 2 * -Real.log 3 + -(2 * Real.log 2) ≠ 0 := by
    have e : Real.log 8 = 3 * Real.log 2 := by
      rw [show (8 : ℝ) = 2 ^ 3 by norm_num, Real.log_pow]; norm_num
    have e' : Real.log 9 = 2 * Real.log 3 := by
      rw [show (9 : ℝ) = 3 ^ 2 by norm_num, Real.log_pow]; norm_num
    have : Real.log 8 < Real.log 9 := Real.log_lt_log (by norm_num) (by norm_num)
    linarith
  have n2 : 1 / -Real.log 2 - 2 * (1 / -Real.log 3) + 1 / -(2 * Real.log 2) ≠ 0 := by
    have e : Real.log 16 = 4 * Real.log 2 := by
      rw [show (16 : ℝ) = 2 ^ 4 by norm_num, Real.log_pow]; norm_num
    have e' : Real.log 27 = 3 * Real.log 3 := by
      rw [show (27 : ℝ) = 3 ^ 3 by norm_num, Real.log_pow]; norm_num
    have : Real.log 16 < Real.log 27 := Real.log_lt_log (by norm_num) (by norm_num)
    have e2 : 1 / -Real.log 2 - 2 * (1 / -Real.log 3) + 1 / -(2 * Real.log 2) =
      (4 * Real.log 2 - 3 * Real.log 3) / (2 * Real.log 2 * Real.log 3) := by field_simp; ring
    rw [e2]
    exact div_ne_zero (by linarith) (by positivity)
  have run : ∃ o r, integralMethod [0, 1, 2] [1 / 2, 1 / 3, 1 / 4] 1 (1 + 2) 1 = .ok (o, r) ∧ r < 1 := by
    unfold integralMethod
    rw [arange_two]
    simp only
    unfold integralLoop
    rw [t1]
    simp only
    have tot : ∀ a b c : ℝ, ∃ x, rSquared [0, 1, 2] [.fin a, .fin b, .fin c] = .ok x := fun a b c =>
      ⟨_, rSquared_eq [0, 1, 2] [a, b, c] rfl⟩
    have last : ∀ o b : ℝ, b < 1 → ∃ o' r, integralLoop [0, 1, 2] [1 + 1]
        [.fin (-Real.log 2), .fin (-Real.log 3), .fin (-(2 * Real.log 2))] o b = .ok (o', r) ∧ r < 1 := by
      intro o b hb
      unfold integralLoop
      rw [t2]
      simp only
      obtain ⟨x, hx⟩ := tot (1 / -Real.log 2) (1 / -Real.log 3) (1 / -(2 * Real.log 2))
      rw [hx]
      cases x with
      | none => exact ⟨o, b, rfl, hb⟩
      | some r =>
        simp only
        split_ifs
        · exact ⟨_, r, rfl, rSquared_three n2 hx⟩
        · exact ⟨o, b, rfl, hb⟩
    obtain ⟨x, hx⟩ := tot (-Real.log 2) (-Real.log 3) (-(2 * Real.log 2))
    rw [hx]
    cases x with
    | none => exact last 0 0 zero_lt_one
    | some r =>
      simp only
      split_ifs
      · exact last 1 r (rSquared_three n1 hx)
      · exact last 0 0 zero_lt_one
  obtain ⟨o, r, hr, hlt⟩ := run
  have hb := h [0, 1, 2] [1 / 2, 1 / 3, 1 / 4] [1, 1 + 1] 1 (1 + 2) 1 o r rfl hp (arange_two 1) (by norm_num) hr
  have := hb.1 (1 + 1) (by simp) 1 (by
    have e : ([1 / 2, 1 / 3, 1 / 4] : List ℝ).map (integrated (1 + 1)) = [2, 3, 4] := by
      have e1 : (1 : ℝ) - (1 + 1) = -1 := by norm_num
      simp only [integrated, List.map_cons, List.map_nil, e1, Real.rpow_neg_one]
      norm_num
    rw [e]
    norm_num [R2, cross, dot])
  linarith

end Verif
